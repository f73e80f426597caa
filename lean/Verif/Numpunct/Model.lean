/-
Model of include/strf/detail/facets/numpunct.hpp: the bit-packed `digits_grouping`, its iterator,
`reverse_digits_groups`, `distribute`, `digits_grouping_creator` and the constructors.

A packed word is a `Nat` below 2^32 (`underlying_int_t_`, numpunct.hpp:20); shifts left are taken modulo 2^32.
`STRF_ASSERT`s are preconditions, not behaviour.
-/
namespace Strf.Numpunct

/-- numpunct.hpp:20-24: a 32-bit left shift by `grp_bits_count_ = 5` -/
def shl5 (w : Nat) : Nat := (w * 32) % 2 ^ 32

/-- numpunct.hpp:25 `repeat_last` -/
def repeatLast : Nat := 2
/-- numpunct.hpp:26 `dont_repeat_last` -/
def dontRepeatLast : Nat := 3

/-- numpunct.hpp:56-60 `digits_grouping_iterator::current()` -/
def current (w : Nat) : Nat := w % 32
/-- numpunct.hpp:61-65 `digits_grouping_iterator::advance()` -/
def advance (w : Nat) : Nat := w / 32
/-- numpunct.hpp:66-70 `digits_grouping_iterator::is_last()` -/
def isLast (w : Nat) : Bool := w / 128 == 0
/-- numpunct.hpp:71-76 `digits_grouping_iterator::shall_repeat_current()` -/
def shallRepeat (w : Nat) : Bool := w / 32 == repeatLast
/-- numpunct.hpp:77-82 `digits_grouping_iterator::is_final()` -/
def isFinal (w : Nat) : Bool := w / 32 == dontRepeatLast
/-- numpunct.hpp:83-86 `digits_grouping_iterator::ended()` -/
def ended (w : Nat) : Bool := w / 4 == 0

/-- numpunct.hpp:119-123 `reverse_digits_groups::push_low(grp)` -/
def pushLow (r g : Nat) : Nat := shl5 r ||| g
/-- numpunct.hpp:124-127 `reverse_digits_groups::pop_high()` -/
def popHigh (r : Nat) : Nat := r / 32
/-- numpunct.hpp:128-131 `reverse_digits_groups::highest_group()` -/
def highestGroup (r : Nat) : Nat := r % 32
/-- numpunct.hpp:132-135 `reverse_digits_groups::empty()` -/
def revEmpty (r : Nat) : Bool := r == 0

/-- numpunct.hpp:142-147 `digits_distribution` -/
structure Dist where
  low : Nat
  middle : Nat
  highest : Nat
deriving DecidableEq, Repr

/-- numpunct.hpp:190-194 `digits_grouping::any_separator(digcount)` -/
def anySeparator (w n : Nat) : Bool := w != dontRepeatLast && n > w % 32

/-- numpunct.hpp:206-220: the loop of `separators_count`. It ends because a word that is not `is_last` gets
smaller when shifted. -/
def sepLoop (w n count : Nat) : Nat :=
  if n ≤ current w then count
  else if h : isLast w then
    if shallRepeat w then count + (n - 1) / current w else count + (if n > current w then 1 else 0)
  else sepLoop (advance w) (n - current w) (count + 1)
termination_by w
decreasing_by simp [isLast] at h; simp [advance]; omega

/-- numpunct.hpp:195-221 `digits_grouping::separators_count(digcount)` -/
def separatorsCount (w n : Nat) : Nat :=
  if n ≤ 1 then 0 else if ended w then 0 else sepLoop w n 0

/-- numpunct.hpp:234-250: the loop of `distribute`; `none` if it does not end within `fuel` turns -/
def distLoop : Nat → Nat → Nat → Nat → Option Dist
  | 0, _, _, _ => none
  | fuel + 1, w, low, n =>
    let grp := current w
    if grp ≥ n then some ⟨low, 0, n⟩
    else
      let low := pushLow low grp
      if shallRepeat w then
        let n := n - 1
        some ⟨low, n / grp, 1 + n % grp⟩
      else if isFinal w then some ⟨low, 0, n - grp⟩
      else distLoop fuel (advance w) low (n - grp)

/-- numpunct.hpp:225-251 `digits_grouping::distribute(digcount)`. Six groups fit in a word: seven turns. -/
def distribute (w n : Nat) : Option Dist :=
  if ended w then some ⟨0, 0, n⟩ else distLoop 7 w 0 n

/-- numpunct.hpp:252-255 `digits_grouping::empty()` -/
def isEmpty (w : Nat) : Bool := w == dontRepeatLast

/-- numpunct.hpp:167-170 default constructor -/
def emptyWord : Nat := dontRepeatLast

/-- numpunct.hpp:278-294 `ctor2_`: the arguments, the last of which may be -1 -/
def ctor2 : List Int → Nat
  | [] => dontRepeatLast
  | [g] => if g = -1 then dontRepeatLast else (repeatLast * 32) ||| g.toNat
  | g :: g1 :: gs => g.toNat ||| shl5 (ctor2 (g1 :: gs))

/-- numpunct.hpp:397-398: the state of `digits_grouping_creator` -/
structure Creator where
  rev : Nat
  failed : Bool
deriving DecidableEq, Repr

/-- numpunct.hpp:397-398 initial state -/
def Creator.init : Creator := ⟨0, false⟩

/-- numpunct.hpp:392-395 `enough_space_to_push()` -/
def Creator.enough (c : Creator) : Bool := c.rev < 2 ^ 25

/-- numpunct.hpp:330-346 `push_high(grp)` (the signed and the unsigned overload; `g` is the value passed) -/
def Creator.push (c : Creator) (g : Int) : Creator :=
  if c.failed || g < 1 || g > 31 || ! c.enough then { c with failed := true }
  else { c with rev := shl5 c.rev ||| g.toNat }

/-- numpunct.hpp:359-362 and 382-386: the loop that pops groups from `reverse_grps_` onto `grps` -/
def popAll (r grps : Nat) : Nat :=
  if h : r = 0 then grps else popAll (r / 32) (shl5 grps ||| (r % 32))
termination_by r
decreasing_by omega

/-- numpunct.hpp:353-364 `finish_no_more_sep()` -/
def Creator.finishNoMoreSep (c : Creator) : Nat :=
  if c.failed || c.rev == 0 then emptyWord else popAll c.rev dontRepeatLast

/-- numpunct.hpp:375-381: the loop dropping groups equal to the last one -/
def skipEqual (r hi : Nat) : Nat :=
  if h : r = 0 then r else if r % 32 = hi then skipEqual (r / 32) hi else r
termination_by r
decreasing_by omega

/-- numpunct.hpp:366-388 `finish()` -/
def Creator.finish (c : Creator) : Nat :=
  if c.failed || c.rev == 0 then emptyWord
  else
    let hi := c.rev % 32
    popAll (skipEqual (c.rev / 32) hi) (shl5 repeatLast ||| hi)

/-- numpunct.hpp:404-420: the loop of `digits_grouping(const char* str)`. A character is its byte (0..255);
the list is what precedes the terminating zero. -/
def strLoop (c : Creator) : List Nat → Nat
  | [] => c.finish
  | ch :: s =>
    if ch = 0 then c.finish
    else if ch / 128 % 2 ≠ 0 then c.finishNoMoreSep
    else strLoop (c.push ch) s

/-- numpunct.hpp:404-420 `digits_grouping(const char* str)` -/
def ctorStr (s : List Nat) : Nat := strLoop Creator.init s

/-- numpunct.hpp:426-514 `numpunct<Base>`: its three data members -/
structure Facet where
  grouping : Nat
  decimalPoint : Nat
  thousandsSep : Nat
deriving DecidableEq, Repr

/-- numpunct.hpp:432, 511-513 default constructor: no grouping, '.', ',' -/
def Facet.default : Facet := ⟨emptyWord, 0x2E, 0x2C⟩
/-- numpunct.hpp:434-438: constructor from group sizes -/
def Facet.ofGroups (gs : List Int) : Facet := { Facet.default with grouping := ctor2 gs }
/-- numpunct.hpp:459-468 setter `grouping(grp)` -/
def Facet.setGrouping (f : Facet) (g : Nat) : Facet := { f with grouping := g }
/-- numpunct.hpp:485-494 setter `thousands_sep(ch)` -/
def Facet.setSep (f : Facet) (c : Nat) : Facet := { f with thousandsSep := c }
/-- numpunct.hpp:499-508 setter `decimal_point(ch)` -/
def Facet.setPoint (f : Facet) (c : Nat) : Facet := { f with decimalPoint := c }
/-- numpunct.hpp:455-458 getter `grouping()` -/
def Facet.getGrouping (f : Facet) : Nat := f.grouping
/-- numpunct.hpp:481-484 getter `thousands_sep()` -/
def Facet.getSep (f : Facet) : Nat := f.thousandsSep
/-- numpunct.hpp:495-498 getter `decimal_point()` -/
def Facet.getPoint (f : Facet) : Nat := f.decimalPoint
/-- numpunct.hpp:445-454 `operator==` -/
def Facet.eq (f g : Facet) : Bool :=
  f.grouping == g.grouping && f.decimalPoint == g.decimalPoint && f.thousandsSep == g.thousandsSep

/-- numpunct.hpp:562-617 `no_grouping<Base>`: one data member -/
structure NoGrouping where
  decimalPoint : Nat
deriving DecidableEq, Repr

/-- numpunct.hpp:604-613 setter `decimal_point(ch)` -/
def NoGrouping.setPoint (_ : NoGrouping) (c : Nat) : NoGrouping := ⟨c⟩
/-- numpunct.hpp:596-599 getter `decimal_point()`: returns U'.' -/
def NoGrouping.getPoint (_ : NoGrouping) : Nat := 0x2E
/-- numpunct.hpp:592-595 getter `thousands_sep()`: returns U',' -/
def NoGrouping.getSep (_ : NoGrouping) : Nat := 0x2C
/-- numpunct.hpp:576-579 getter `grouping()`: the empty grouping -/
def NoGrouping.getGrouping (_ : NoGrouping) : Nat := emptyWord

/-- How users of `distribute` read its result, most significant group first (int_digits.hpp:1029-1068): the
highest group; `middle` times the highest of the low groups, which is then popped; the other low groups. The
low groups are read by `highest_group` / `pop_high` until `empty`. -/
def lowList (r : Nat) : List Nat :=
  if _h : r = 0 then [] else highestGroup r :: lowList (popHigh r)
termination_by r
decreasing_by simp [popHigh]; omega

/-- see `lowList` -/
def Dist.read (d : Dist) : List Nat :=
  if d.middle ≠ 0 then
    d.highest :: (List.replicate d.middle (highestGroup d.low) ++ lowList (popHigh d.low))
  else d.highest :: lowList d.low

end Strf.Numpunct

import Verif.IntPrinter.Spec
/-!
# What a chain of format functions asks for

docs/ref_format_functions.adoc. `fmt(x).f().g()…`: each format function sets one option (or a few), and leaves the others
as they were. Hence the value of an option is the one that was given last, or its default. Nothing here refers to the
code.
-/
namespace Strf.Format
open Strf.IntPrinter.Spec

/-- the value given last to an option: `f` says which calls give it a value -/
def last {α β : Type} (f : α → Option β) (dflt : β) (calls : List α) : β := ((calls.filterMap f).getLast?).getD dflt

/-- the alignment functions; the widths are `width_t` values (1/65536 of a column) -/
inductive AlignCall
  /-- `< w` -/ | left (w : Int)
  /-- `> w` -/ | right (w : Int)
  /-- `^ w` -/ | center (w : Int)
  /-- `.fill(c)` -/ | fill (c : Nat)
  /-- `.set_alignment_format(alignment_format{fill, width, alignment})` -/ | set (fill : Nat) (w : Int) (a : Align)
  /-- `.set_alignment_format(default_alignment_format{})`, `.clear_alignment_format()` -/ | clear
deriving DecidableEq, Repr

namespace AlignCall

/-- which call sets the fill character -/
def fill? : AlignCall → Option Nat
  | .fill c => some c
  | .set c _ _ => some c
  | .clear => some 0x20
  | _ => none

/-- which call sets the width -/
def width? : AlignCall → Option Int
  | .left w => some w
  | .right w => some w
  | .center w => some w
  | .set _ w _ => some w
  | .clear => some 0
  | .fill _ => none

/-- which call sets the alignment -/
def align? : AlignCall → Option Align
  | .left _ => some .left
  | .right _ => some .right
  | .center _ => some .center
  | .set _ _ a => some a
  | .clear => some .right
  | .fill _ => none

end AlignCall

/-- the fill character asked for: a space unless set -/
def fillOf (cs : List AlignCall) : Nat := last AlignCall.fill? 0x20 cs
/-- the width asked for -/
def widthOf (cs : List AlignCall) : Int := last AlignCall.width? 0 cs
/-- the alignment asked for -/
def alignOf (cs : List AlignCall) : Align := last AlignCall.align? .right cs

/-- the format functions of integers -/
inductive IntCall
  | hex | dec | oct | bin
  /-- `.base(b)` -/ | base (b : Nat)
  /-- `.p(n)` -/ | p (n : Int)
  /-- `.pad0(n)` -/ | pad0 (n : Int)
  /-- `+` -/ | plus
  /-- `~`, `.fill_sign()` -/ | fillSign
  /-- `*` -/ | star
  /-- `!`, `.punct()` -/ | punct
  /-- `.set_int_format(int_format{…})` -/ | set (f : Fmt) (punctuate : Bool)
  | align (a : AlignCall)
deriving DecidableEq, Repr

namespace IntCall

def base? : IntCall → Option Nat
  | .hex => some 16
  | .dec => some 10
  | .oct => some 8
  | .bin => some 2
  | .base b => some b
  | .set f _ => some f.base
  | _ => none

def precision? : IntCall → Option Int
  | .p n => some n
  | .set f _ => some f.precision
  | _ => none

def pad0? : IntCall → Option Int
  | .pad0 n => some n
  | .set f _ => some f.pad0
  | _ => none

def sign? : IntCall → Option Showsign
  | .plus => some .positiveAlso
  | .fillSign => some .fillInstead
  | .set f _ => some f.sign
  | _ => none

def showbase? : IntCall → Option Bool
  | .star => some true
  | .set f _ => some f.showbase
  | _ => none

def punct? : IntCall → Option Bool
  | .punct => some true
  | .set _ b => some b
  | _ => none

def align? : IntCall → Option AlignCall
  | .align a => some a
  | _ => none

end IntCall

/-- the integer options asked for; a base other than 2, 8, 10 and 16 is not meant to be given -/
def intOptions (cs : List IntCall) : Fmt where
  base := last IntCall.base? 10 cs
  precision := last IntCall.precision? 0 cs
  pad0 := last IntCall.pad0? 0 cs
  sign := last IntCall.sign? .negativeOnly cs
  showbase := last IntCall.showbase? false cs

/-- whether punctuation is asked for -/
def punctuated (cs : List IntCall) : Bool := last IntCall.punct? false cs

/-- the alignment functions among the calls -/
def alignCalls (cs : List IntCall) : List AlignCall := cs.filterMap IntCall.align?

theorem last_nil {α β : Type} (f : α → Option β) (d : β) : last f d [] = d := rfl

theorem last_append {α β : Type} (f : α → Option β) (d : β) (cs : List α) (c : α) :
    last f d (cs ++ [c]) = (f c).getD (last f d cs) := by
  unfold last
  rw [List.filterMap_append]
  cases h : f c with
  | none => simp [List.filterMap_cons, h]
  | some b => simp [List.filterMap_cons, h]

/-- `*hex(255).p(4) > 10` -/
example : intOptions [.hex, .star, .p 4, .align (.right 655360)] = ⟨16, 4, 0, .negativeOnly, true⟩ ∧
    alignOf (alignCalls [.hex, .star, .p 4, .align (.right 655360)]) = .right := by decide

end Strf.Format

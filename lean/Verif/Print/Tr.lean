import Verif.Print.StringProps
/-!
# Model of include/strf/detail/tr_printer.hpp and include/strf/detail/printable_types/tr_string.hpp

A pointer into the tr-string is the rest of the string from there on. `none` is undefined behaviour or a loop that does not
end. The calls of the error notifier are recorded as the list of the positions passed to it (the other arguments of
`handle` are the string, its length and the charset).
-/
namespace Strf.Print
open Strf.Width
open Strf.Dest (Dest Lawful Prints)

variable {σ : Type}

/-- strf::detail::str_find (standard_lib_functions.hpp 314–328: char_traits::find, or the loop):
pointer to the first `c`, or null -/
def strFind (c : Nat) : List Nat → Option (List Nat)
  | [] => none
  | x :: l => if x = c then some (x :: l) else strFind c l

/-- tr_printer.hpp 56–70: the loop of read_uint. The `ptrdiff_t` does not overflow: it is below ten times the limit. -/
def readUintLoop (limit : Nat) : Nat → List Nat → Nat × List Nat
  | value, [] => (value, [])
  | value, ch :: l =>
    if ch < 0x30 ∨ 0x39 < ch then (value, ch :: l)
    else if value * 10 + (ch - 0x30) ≥ limit then (limit + 1, ch :: l)
    else readUintLoop limit (value * 10 + (ch - 0x30)) l

/-- tr_printer.hpp 51–72 read_uint; the string is not empty (`none`: it is) -/
def readUint (limit : Nat) : List Nat → Option (Nat × List Nat)
  | [] => none
  | ch :: l => some (readUintLoop limit (ch - 0x30) l)

/-- the text between two pointers -/
def upTo (it it2 : List Nat) : List Nat := it.take (it.length - it2.length)

/-- what tr_string_write uses of the charset: write_replacement_char and replacement_char_size -/
structure Repl (σ : Type) where
  write : σ → Option σ
  size : Nat

/-- tr_printer.hpp 422–427, 431–437, 440–445, 461–467: print the argument if it exists, otherwise the replacement character
and call the error notifier with the position (it - str) - 1 -/
def useArg (R : Repl σ) (args : List (σ → Option σ)) (strLen : Nat) (i : Nat) (it : List Nat) (st : σ × List Nat) :
    Option (σ × List Nat) :=
  if h : i < args.length then (args[i] st.1).map fun s => (s, st.2)
  else (R.write st.1).map fun s => (s, st.2 ++ [strLen - it.length - 1])

/-- tr_printer.hpp 397–489 tr_string_write: `brace = false` is the head of the while loop, `brace = true` the label
after_the_opening_brace. -/
def trWrite (D : Dest Nat σ) (R : Repl σ) (args : List (σ → Option σ)) (strLen : Nat) :
    Nat → Bool → List Nat → Nat → σ × List Nat → Option (σ × List Nat)
  | 0, _, _, _, _ => none
  | fuel + 1, false, it, idx, st =>
    if it.length = 0 then some st
    else match strFind 0x7B it with
      | none => (Dest.write D st.1 it).map fun s => (s, st.2)
      | some it' => (Dest.write D st.1 (upTo it it')).bind fun s => trWrite D R args strLen fuel true it'.tail idx (s, st.2)
  | _ + 1, true, [], idx, st => useArg R args strLen idx [] st
  | fuel + 1, true, ch :: t, idx, st =>
    if ch = 0x7D then
      (useArg R args strLen idx (ch :: t) st).bind fun st =>
        trWrite D R args strLen fuel false t (if idx < args.length then idx + 1 else idx) st
    else if 0x30 ≤ ch ∧ ch ≤ 0x39 then
      (readUint args.length (ch :: t)).bind fun r =>
        (useArg R args strLen r.1 (ch :: t) st).bind fun st =>
          match strFind 0x7D r.2 with
          | none => some st
          | some it => trWrite D R args strLen fuel false it.tail idx st
    else if ch = 0x7B then
      match strFind 0x7B t with
      | none => (Dest.write D st.1 (ch :: t)).map fun s => (s, st.2)
      | some it2 => (Dest.write D st.1 (upTo (ch :: t) it2)).bind fun s =>
          trWrite D R args strLen fuel true it2.tail idx (s, st.2)
    else
      (if ch ≠ 0x2D then
        (useArg R args strLen idx (ch :: t) st).map fun st => (st, if idx < args.length then idx + 1 else idx)
      else some (st, idx)).bind fun r =>
        match strFind 0x7D t with
        | none => some r.1
        | some it => trWrite D R args strLen fuel false it.tail r.2 r.1

/-- tr_printer.hpp 397–489 with the initial values (the fuel suffices: each round consumes a code unit) -/
def trStringWrite (D : Dest Nat σ) (R : Repl σ) (args : List (σ → Option σ)) (str : List Nat) (st : σ × List Nat) :
    Option (σ × List Nat) :=
  trWrite D R args str.length (str.length + 1) false str 0 st

/-- What tr_do_premeasurements uses: account_string and account_arg, which return whether to stop, and num_args. -/
structure TrPre (π : Type) where
  accountString : List Nat → π → Option (Bool × π)
  accountArg : Nat → π → Option (Bool × π)
  numArgs : Nat

/-- tr_printer.hpp 248–318 tr_do_premeasurements -/
def trPre {π : Type} (P : TrPre π) : Nat → Bool → List Nat → Nat → π → Option π
  | 0, _, _, _, _ => none
  | fuel + 1, false, it, idx, st =>
    if it.length = 0 then some st
    else match strFind 0x7B it with
      | none => (P.accountString it st).map (·.2)
      | some it' => (P.accountString (upTo it it') st).bind fun r =>
          if r.1 then some r.2 else trPre P fuel true it'.tail idx r.2
  | _ + 1, true, [], idx, st => (P.accountArg idx st).map (·.2)
  | fuel + 1, true, ch :: t, idx, st =>
    if ch = 0x7D then
      (P.accountArg idx st).bind fun r => if r.1 then some r.2 else trPre P fuel false t (idx + 1) r.2
    else if 0x30 ≤ ch ∧ ch ≤ 0x39 then
      (readUint P.numArgs (ch :: t)).bind fun n =>
        (P.accountArg n.1 st).bind fun r =>
          if r.1 then some r.2
          else match strFind 0x7D n.2 with
            | none => some r.2
            | some it => trPre P fuel false it.tail idx r.2
    else if ch = 0x7B then
      match strFind 0x7B t with
      | none => (P.accountString (ch :: t) st).map (·.2)
      | some it2 => (P.accountString (upTo (ch :: t) it2) st).bind fun r =>
          if r.1 then some r.2 else trPre P fuel true it2.tail idx r.2
    else if ch ≠ 0x2D then
      (P.accountArg idx st).bind fun r =>
        if r.1 then some r.2
        else match strFind 0x7D t with
          | none => some r.2
          | some it => trPre P fuel false it.tail (idx + 1) r.2
    else match strFind 0x7D t with
      | none => some st
      | some it => trPre P fuel false it.tail idx st

/-- tr_do_premeasurements with the initial values -/
def trDoPre {π : Type} (P : TrPre π) (str : List Nat) (st : π) : Option π := trPre P (str.length + 1) false str 0 st

/-- tr_printer.hpp 87–130 tr_pre_size -/
def trPreSize (sizes : List Nat) (replSize : Nat) : TrPre Nat where
  accountString s size := some (false, size + s.length)
  accountArg i size := some (false, size + if h : i < sizes.length then sizes[i] else replSize)
  numArgs := sizes.length

/-- tr_printer.hpp 132–183 tr_pre_width -/
def trPreWidth (W : WCalc) (widths : List Int) (limit : Int) : TrPre Int where
  accountString s w :=
    if w < limit then
      (Width.sub limit w).bind fun d => (W.strWidth d s).bind fun x =>
        (Width.add w x).map fun w => (decide (w ≥ limit), w)
    else some (false, w)
  accountArg i w :=
    if w < limit then
      (Width.add w (if h : i < widths.length then widths[i] else Width.ofInt 1)).map fun w => (decide (w ≥ limit), w)
    else some (false, w)
  numArgs := widths.length

/-- tr_printer.hpp 187–245 tr_pre_size_and_width -/
def trPreSizeWidth (W : WCalc) (sizes : List Nat) (widths : List Int) (replSize : Nat) (limit : Int) :
    TrPre (Nat × Int) where
  accountString s z :=
    (Width.sub limit z.2).bind fun d => (W.strWidth d s).bind fun x =>
      (Width.add z.2 x).map fun w => (false, (z.1 + s.length, w))
  accountArg i z :=
    if h : i < sizes.length ∧ i < widths.length then
      (Width.add z.2 widths[i]).map fun w => (false, (z.1 + sizes[i], w))
    else (Width.add z.2 (Width.ofInt 1)).map fun w => (false, (z.1 + replSize, w))
  numArgs := sizes.length

/-- tr_printer.hpp 320–395 tr_string_size -/
def trSize (sizes : List Nat) (replSize : Nat) : Nat → Bool → List Nat → Nat → Nat → Option Nat
  | 0, _, _, _, _ => none
  | fuel + 1, false, it, idx, count =>
    if it.length = 0 then some count
    else match strFind 0x7B it with
      | none => some (count + it.length)
      | some it' => trSize sizes replSize fuel true it'.tail idx (count + (upTo it it').length)
  | _ + 1, true, [], idx, count => some (count + if h : idx < sizes.length then sizes[idx] else replSize)
  | fuel + 1, true, ch :: t, idx, count =>
    if ch = 0x7D then
      trSize sizes replSize fuel false t (if idx < sizes.length then idx + 1 else idx)
        (count + if h : idx < sizes.length then sizes[idx] else replSize)
    else if 0x30 ≤ ch ∧ ch ≤ 0x39 then
      (readUint sizes.length (ch :: t)).bind fun r =>
        match strFind 0x7D r.2 with
        | none => some (count + if h : r.1 < sizes.length then sizes[r.1] else replSize)
        | some it => trSize sizes replSize fuel false it.tail idx
            (count + if h : r.1 < sizes.length then sizes[r.1] else replSize)
    else if ch = 0x7B then
      match strFind 0x7B t with
      | none => some (count + (ch :: t).length)
      | some it2 => trSize sizes replSize fuel true it2.tail idx (count + (upTo (ch :: t) it2).length)
    else if ch ≠ 0x2D then
      match strFind 0x7D t with
      | none => some (count + if h : idx < sizes.length then sizes[idx] else replSize)
      | some it => trSize sizes replSize fuel false it.tail (if idx < sizes.length then idx + 1 else idx)
          (count + if h : idx < sizes.length then sizes[idx] else replSize)
    else match strFind 0x7D t with
      | none => some count
      | some it => trSize sizes replSize fuel false it.tail idx count

/-- tr_string_size with the initial values -/
def trStringSize (sizes : List Nat) (replSize : Nat) (str : List Nat) : Option Nat :=
  trSize sizes replSize (str.length + 1) false str 0 0

/-- tr_string.hpp 317 `Pre pre_arr[N] = {}`: premeasurements of the same kind, for each argument -/
def Pre.fresh (p : Pre) : Pre := ⟨p.size.map fun _ => 0, p.acc.map fun _ => .default⟩

/-- printers_tuple.hpp 141–151: the printer of each argument is made with its own premeasurements -/
def makeEach (p : Pre) : List (Item σ) → Option (List (Pre × (σ → Option σ)))
  | [] => some []
  | it :: its => (it.make p).bind fun r => (makeEach p its).map fun rs => r :: rs

/-- premeasurements.hpp 171–174 accumulated_ssize -/
def Pre.accSize (p : Pre) : Nat := p.size.getD 0
/-- premeasurements.hpp 49–52, 93–96 accumulated_width -/
def Pre.accWidth (p : Pre) : Int := match p.acc with
  | none => 0
  | some a => a.accumulated

/-- tr_string.hpp 82–155, 227–355: make_printer of tr-strings, without and with arguments. The state of the destination
is paired with the positions reported to the error notifier. -/
def trMake (W : WCalc) (replSize : Nat) (sizes : List Nat) (widths : List Int) (str : List Nat) (p : Pre) : Option Pre :=
  match p.size, p.acc with
  | none, none => some p
  | some _, none => (trDoPre (trPreSize sizes replSize) str 0).map p.addSize
  | none, some _ => p.remaining.bind fun lim => (trDoPre (trPreWidth W widths lim) str 0).bind p.addWidth
  | some _, some _ => p.remaining.bind fun lim =>
      (trDoPre (trPreSizeWidth W sizes widths replSize lim) str (0, 0)).bind fun r => (p.addSize r.1).addWidth r.2

/-- tr_string.hpp 210–355 strf::tr(str, args...) as a printable value -/
def trItem (D : Dest Nat σ) (W : WCalc) (R : Repl σ) (str : List Nat) (args : List (Item σ)) : Item σ where
  make p :=
    (makeEach p.fresh args).bind fun rs =>
      (trMake W R.size (rs.map fun r => r.1.accSize) (rs.map fun r => r.1.accWidth) str p).map fun p =>
        (p, fun s => (trStringWrite D R (rs.map fun r => r.2) str (s, [])).map (·.1))

end Strf.Print

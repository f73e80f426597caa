import Verif.IntDigits.Spec
import Verif.Numpunct.Spec
/-
What a formatted integer looks like (docs/ref_format_functions.adoc, "Integer formatting" and "Alignment formatting"),
without reference to the code. `enc` gives the code units of a character.
-/
namespace Strf.IntPrinter.Spec
open Strf.IntDigits.Spec Strf.Numpunct.Spec

/-- `strf::showsign`: only '-'; '+' for the others; or the fill character for the others -/
inductive Showsign | negativeOnly | positiveAlso | fillInstead
deriving DecidableEq, Repr

/-- `strf::text_alignment` -/
inductive Align | left | right | center
deriving DecidableEq, Repr

/-- an integer type and a value of it -/
structure IntVal where
  signed : Bool
  bytes : Nat
  value : Int
deriving DecidableEq, Repr

/-- the value is one of the type, and the type is one of 8, 16, 32 or 64 bits -/
def IntVal.Ok (x : IntVal) : Prop :=
  (x.bytes = 1 ∨ x.bytes = 2 ∨ x.bytes = 4 ∨ x.bytes = 8) ∧
  if x.signed then -2 ^ (8 * x.bytes - 1) ≤ x.value ∧ x.value < 2 ^ (8 * x.bytes - 1)
  else 0 ≤ x.value ∧ x.value < 2 ^ (8 * x.bytes)

instance (x : IntVal) : Decidable x.Ok := by unfold IntVal.Ok; infer_instance

/-- the options of an integer format (`strf::int_format` without `punctuate`) -/
structure Fmt where
  base : Nat
  precision : Int
  pad0 : Int
  sign : Showsign
  showbase : Bool
deriving DecidableEq, Repr

/-- the options of alignment: fill character, alignment, width in columns -/
structure Layout where
  fill : Nat
  align : Align
  columns : Int
deriving DecidableEq, Repr

/-- no alignment format -/
def Layout.none : Layout := ⟨0x20, .right, 0⟩

/-- the number whose digits are printed: in decimal the absolute value; in the other bases the two's complement bits -/
def magnitude (base : Nat) (x : IntVal) : Nat :=
  if base = 10 then x.value.natAbs else (x.value % 2 ^ (8 * x.bytes)).toNat

/-- what comes before the digits: in decimal the sign, of which there is none for non-negative values of a signed
type unless asked for, and never one for unsigned types; in the other bases 0x, 0b or 0 if asked for, where a zero in
octal needs no other zero. The letter is upper case only if the letter case is `upper`. -/
def leader (enc : Nat → List Nat) (lc : Lettercase) (fmt : Fmt) (fill : Nat) (x : IntVal) : List Nat :=
  if fmt.base = 10 then
    if x.value < 0 then [0x2D]
    else if x.signed then
      match fmt.sign with
      | .negativeOnly => []
      | .positiveAlso => [0x2B]
      | .fillInstead => enc fill
    else []
  else if fmt.showbase then
    if fmt.base = 8 then (if x.value = 0 then [] else [0x30])
    else if fmt.base = 16 then [0x30, if lc = .upper then 0x58 else 0x78]
    else [0x30, if lc = .upper then 0x42 else 0x62]
  else []

/-- the number of columns of `leader`: one per character -/
def leaderColumns (fmt : Fmt) (x : IntVal) : Nat := (leader (fun c => [c]) .lower fmt 0x20 x).length

/-- the digits of the number -/
def digits (lc : Lettercase) (fmt : Fmt) (x : IntVal) : List Nat := text fmt.base lc (magnitude fmt.base x)

/-- the sizes of the groups of its digits, the most significant group first; without punctuation there is one -/
def groups (gs : List Nat) (rep : Bool) (fmt : Fmt) (x : IntVal) : List Nat :=
  (split gs rep (digits .lower fmt x).length).reverse

/-- the number of columns of the number, the separators and what comes before -/
def columns (gs : List Nat) (rep : Bool) (fmt : Fmt) (x : IntVal) : Nat :=
  leaderColumns fmt x + (digits .lower fmt x).length + ((groups gs rep fmt x).length - 1)

/-- the number of digits the precision is compared with: the 0 that marks octal numbers is one of them -/
def digitCount (fmt : Fmt) (x : IntVal) : Nat :=
  (digits .lower fmt x).length + (if fmt.base = 8 then leaderColumns fmt x else 0)

/-- the number of zeros to be inserted: so many that there are `precision` digits and `pad0` columns -/
def zeros (gs : List Nat) (rep : Bool) (fmt : Fmt) (x : IntVal) : Nat :=
  max (fmt.precision - digitCount fmt x).toNat (fmt.pad0 - columns gs rep fmt x).toNat

/-- the fill characters missing to the given width -/
def missing (gs : List Nat) (rep : Bool) (fmt : Fmt) (lay : Layout) (x : IntVal) : Nat :=
  (lay.columns - (columns gs rep fmt x + zeros gs rep fmt x : Nat)).toNat

/-- how many of `n` fill characters come before the text: in the center, half of them, or one less than those after -/
def before (a : Align) (n : Nat) : Nat :=
  match a with
  | .left => 0
  | .right => n
  | .center => n / 2

/-- `n` times the character `ch` -/
def times (enc : Nat → List Nat) (n ch : Nat) : List Nat := (List.replicate n (enc ch)).flatten

/-- the formatted integer, with `sep` between groups of digits -/
def formatted (enc : Nat → List Nat) (lc : Lettercase) (sep gs : List Nat) (rep : Bool) (fmt : Fmt) (lay : Layout)
    (x : IntVal) : List Nat :=
  let n := missing gs rep fmt lay x
  times enc (before lay.align n) lay.fill ++ leader enc lc fmt lay.fill x ++
    List.replicate (zeros gs rep fmt x) 0x30 ++ grouped sep (groups gs rep fmt x) (digits lc fmt x) ++
    times enc (n - before lay.align n) lay.fill

/-- its width -/
def width (gs : List Nat) (rep : Bool) (fmt : Fmt) (lay : Layout) (x : IntVal) : Nat :=
  columns gs rep fmt x + zeros gs rep fmt x + missing gs rep fmt lay x

end Strf.IntPrinter.Spec

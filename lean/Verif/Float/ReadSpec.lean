import Verif.IntDigits.Spec
import Mathlib.Algebra.Order.Ring.Rat
import Mathlib.Algebra.Order.Field.Power
/-
How a decimal number is read, without reference to the code: an optional sign, digits, optionally a point and more
digits (at least one digit in all), optionally 'e' or 'E', an optional sign and digits. This is the grammar of C's strtod.
-/
namespace Strf.Float.Spec
open Strf.IntDigits.Spec (parse)

/-- '0'–'9' -/
def isDigit (c : Nat) : Bool := decide (0x30 ≤ c ∧ c ≤ 0x39)

/-- digits, at least one, and nothing else -/
def readDigits (cs : List Nat) : Option Nat := if cs ≠ [] ∧ cs.all isDigit then some (parse 10 cs) else none

/-- nothing, or an exponent -/
def readExp (cs : List Nat) : Option Int :=
  match cs with
  | [] => some 0
  | c :: cs =>
    if c = 0x65 ∨ c = 0x45 then
      match cs with
      | [] => none
      | s :: ds =>
        if s = 0x2D then (readDigits ds).map fun n : Nat => -(n : Int)
        else if s = 0x2B then (readDigits ds).map fun n : Nat => (n : Int)
        else (readDigits (s :: ds)).map fun n : Nat => (n : Int)
    else none

/-- the value of the digits before and after the point, with the exponent that follows -/
def readMantissa (int frac rest : List Nat) : Option ℚ :=
  if int = [] ∧ frac = [] then none
  else (readExp rest).map fun x : Int => (parse 10 (int ++ frac) : ℚ) * 10 ^ (x - (frac.length : Int))

/-- a number without sign -/
def readUnsigned (cs : List Nat) : Option ℚ :=
  match cs.dropWhile isDigit with
  | [] => readMantissa (cs.takeWhile isDigit) [] []
  | c :: r =>
    if c = 0x2E then readMantissa (cs.takeWhile isDigit) (r.takeWhile isDigit) (r.dropWhile isDigit)
    else readMantissa (cs.takeWhile isDigit) [] (c :: r)

/-- a number: whether it has a minus sign, and its absolute value -/
def readNumber (cs : List Nat) : Option (Bool × ℚ) :=
  match cs with
  | [] => none
  | c :: r =>
    if c = 0x2D then (readUnsigned r).map fun q => (true, q)
    else if c = 0x2B then (readUnsigned r).map fun q => (false, q)
    else (readUnsigned (c :: r)).map fun q => (false, q)

example : readNumber ("-12.50e-1".toList.map Char.toNat) = some (true, 5 / 4) ∧ readNumber ("1e".toList.map Char.toNat) = none ∧
    readNumber ("7".toList.map Char.toNat) = some (false, 7) := by decide +kernel

end Strf.Float.Spec

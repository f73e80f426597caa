import Verif.Float.ReadSpec
/-
How a hexadecimal floating-point number is read, without reference to the code: an optional sign, "0x" or "0X", hexadecimal
digits, optionally a point and more digits (at least one digit in all), optionally 'p' or 'P', an optional sign and decimal digits:
the power of two. This is the grammar of C's strtod.
-/
namespace Strf.Float.Spec
open Strf.IntDigits.Spec (parse)

/-- '0'–'9', 'A'–'F', 'a'–'f' -/
def isHexDigit (c : Nat) : Bool := decide ((0x30 ≤ c ∧ c ≤ 0x39) ∨ (0x41 ≤ c ∧ c ≤ 0x46) ∨ (0x61 ≤ c ∧ c ≤ 0x66))

/-- an optional sign and digits -/
def readSigned (cs : List Nat) : Option Int :=
  match cs with
  | [] => none
  | s :: ds =>
    if s = 0x2D then (readDigits ds).map fun n : Nat => -(n : Int)
    else if s = 0x2B then (readDigits ds).map fun n : Nat => (n : Int)
    else (readDigits (s :: ds)).map fun n : Nat => (n : Int)

/-- nothing, or a binary exponent -/
def readBinExp (cs : List Nat) : Option Int :=
  match cs with
  | [] => some 0
  | c :: cs => if c = 0x70 ∨ c = 0x50 then readSigned cs else none

/-- the value of the hexadecimal digits before and after the point, with the exponent that follows -/
def readHexMantissa (int frac rest : List Nat) : Option ℚ :=
  if int = [] ∧ frac = [] then none
  else (readBinExp rest).map fun x : Int => (parse 16 (int ++ frac) : ℚ) / 16 ^ frac.length * 2 ^ x

/-- what comes after "0x" -/
def readHexDigits (cs : List Nat) : Option ℚ :=
  match cs.dropWhile isHexDigit with
  | [] => readHexMantissa (cs.takeWhile isHexDigit) [] []
  | c :: r =>
    if c = 0x2E then readHexMantissa (cs.takeWhile isHexDigit) (r.takeWhile isHexDigit) (r.dropWhile isHexDigit)
    else readHexMantissa (cs.takeWhile isHexDigit) [] (c :: r)

/-- a number without sign -/
def readHexUnsigned (cs : List Nat) : Option ℚ :=
  match cs with
  | z :: x :: r => if z = 0x30 ∧ (x = 0x78 ∨ x = 0x58) then readHexDigits r else none
  | _ => none

/-- a number: whether it has a minus sign, and its absolute value -/
def readHexNumber (cs : List Nat) : Option (Bool × ℚ) :=
  match cs with
  | [] => none
  | c :: r =>
    if c = 0x2D then (readHexUnsigned r).map fun q => (true, q)
    else if c = 0x2B then (readHexUnsigned r).map fun q => (false, q)
    else (readHexUnsigned (c :: r)).map fun q => (false, q)

example : readHexNumber ("-0x1.8p+1".toList.map Char.toNat) = some (true, 3) ∧ readHexNumber ("0xA.".toList.map Char.toNat) = some (false, 10) ∧
    readHexNumber ("0x.8p-1".toList.map Char.toNat) = some (false, 1 / 4) ∧ readHexNumber ("0xp1".toList.map Char.toNat) = none ∧
    readHexNumber ("1p1".toList.map Char.toNat) = none := by decide +kernel

end Strf.Float.Spec

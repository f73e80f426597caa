import Verif.Numpunct.Spec
/-!
# How a punctuated number is read

Someone who knows the conventions of a numpunct facet reads a number thus: the thousands separators mean nothing, and the decimal point stands for a point. Here:
the characters of the number written without grouping and with '.'; `Float.Spec.readNumber` says what number that is.
-/
namespace Strf.Punct

/-- The characters of a number without the separators `sep` (`none`: digits are not grouped) and with '.' for `point`. -/
def plain (sep : Option Nat) (point : Nat) (cs : List Nat) : List Nat :=
  (cs.filter fun c => some c ≠ sep).map fun c => if c = point then 0x2E else c

/-- The characters that numbers are made of: digits, signs, and the letter before the exponent. -/
def isNumeric (c : Nat) : Bool := decide (0x30 ≤ c ∧ c ≤ 0x39) || [0x2B, 0x2D, 0x45, 0x65].contains c

/-- Separator and decimal point cannot be taken for one another or for another character of a number. -/
def Clear (sep : Option Nat) (point : Nat) : Prop :=
  isNumeric point = false ∧ ∀ s, sep = some s → isNumeric s = false ∧ s ≠ point

instance (sep : Option Nat) (point : Nat) : Decidable (Clear sep point) := by
  unfold Clear
  cases sep with
  | none => exact decidable_of_iff (isNumeric point = false) (by simp)
  | some s => exact decidable_of_iff (isNumeric point = false ∧ isNumeric s = false ∧ s ≠ point) (by simp)

example : plain (some 0x2E) 0x2C ("-1.234.567,5".toList.map Char.toNat) = "-1234567.5".toList.map Char.toNat ∧
    plain none 0x2C ("0,25e+3".toList.map Char.toNat) = "0.25e+3".toList.map Char.toNat ∧
    Clear (some 0x2E) 0x2C ∧ ¬ Clear (some 0x2C) 0x2C := by decide

end Strf.Punct

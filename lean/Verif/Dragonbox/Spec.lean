import Verif.IntDigits.Spec
import Mathlib.Algebra.Order.Ring.Rat
import Mathlib.Algebra.Order.AbsoluteValue.Basic
import Mathlib.Algebra.Order.Field.Power
/-
IEEE 754 binary numbers, and what it means that a decimal number is read as one of them, without reference to the code.
`p` is the number of mantissa bits, `w` that of exponent bits: 23 and 8 for float, 52 and 11 for double. Only numbers that
are not negative are considered; the sign is a separate matter.
-/
namespace Strf.Dragonbox.Spec

/-- the bias of the exponent -/
def bias (w : Nat) : Int := 2 ^ (w - 1) - 1

/-- the value of the number with these exponent bits and mantissa bits -/
def value (p w : Nat) (eb m : Nat) : ℚ :=
  if eb = 0 then (m : ℚ) * 2 ^ (1 - bias w - p) else ((2 ^ p + m : Nat) : ℚ) * 2 ^ ((eb : Int) - bias w - p)

/-- the bits of a finite number -/
def IsFinite (p w : Nat) (eb m : Nat) : Prop := eb < 2 ^ w - 1 ∧ m < 2 ^ p

/-- What is not less than this is read as infinity: it is halfway between the greatest finite number and the next one, if
there were more exponents. -/
def overflow (p w : Nat) : ℚ := ((2 ^ (p + 2) - 1 : Nat) : ℚ) * 2 ^ ((2 ^ w - 2 : Int) - bias w - p - 1)

/-- `q`, rounded to the nearest number, ties to the one whose last bit is zero, is the number with these bits. -/
structure ReadsAs (p w : Nat) (eb m : Nat) (q : ℚ) : Prop where
  finite : q < overflow p w
  nearest : ∀ eb' m', IsFinite p w eb' m' → |value p w eb m - q| ≤ |value p w eb' m' - q|
  ties : ∀ eb' m', IsFinite p w eb' m' → |value p w eb m - q| = |value p w eb' m' - q| →
    value p w eb' m' ≠ value p w eb m → m % 2 = 0

/-- the decimal number -/
def decimal (d : Nat) (E : Int) : ℚ := (d : ℚ) * 10 ^ E

/-- how many digits -/
def digits (d : Nat) : Nat := (IntDigits.Spec.numeral 10 d).length

/-- `d · 10^E` is the decimal number to be printed for the number with these bits: it is read as that number; no decimal
number with less digits is; and of those with as many digits that are, none is closer to the number. The digits do not
end with zero. -/
structure IsShortest (p w : Nat) (eb m : Nat) (d : Nat) (E : Int) : Prop where
  reads : ReadsAs p w eb m (decimal d E)
  shortest : ∀ d' E', ReadsAs p w eb m (decimal d' E') → digits d ≤ digits d'
  closest : ∀ d' E', ReadsAs p w eb m (decimal d' E') → digits d' = digits d →
    |decimal d E - value p w eb m| ≤ |decimal d' E' - value p w eb m|
  stripped : d % 10 ≠ 0

end Strf.Dragonbox.Spec

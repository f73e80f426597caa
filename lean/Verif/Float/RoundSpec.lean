import Verif.Float.Spec
import Mathlib.Algebra.Order.Ring.Rat
import Mathlib.Algebra.Order.AbsoluteValue.Basic
import Mathlib.Algebra.Order.Field.Power
/-
What it means that a number is rounded, without reference to the code.
-/
namespace Strf.Float.Spec

/-- `q` is the multiple of `u` nearest to `s`, the even one if there are two -/
def Rounded (u s q : ℚ) : Prop := ∃ k : Nat, q = k * u ∧ |q - s| ≤ u / 2 ∧ (|q - s| = u / 2 → k % 2 = 0)

/-- The decimal place of the last digit that a precision asks for in the number whose first digit is at the place `x`: the digits
after the point in the fixed and scientific notations; the digits in all, at least one, in the general notation. -/
def lastPlace (n : Notation) (prec : Nat) (x : Int) : Int :=
  match n with
  | .fixed => -prec
  | .scientific => x - prec
  | .general => x - (max prec 1 - 1 : Nat)

/-- Rounding two numbers to multiples of `u` gives the same unless one of them is a tie or there is one between them. -/
def NoTieBetween (u s v : ℚ) : Prop := ∀ k : Nat, ((k : ℚ) + 1 / 2) * u < min s v ∨ max s v < ((k : ℚ) + 1 / 2) * u

end Strf.Float.Spec

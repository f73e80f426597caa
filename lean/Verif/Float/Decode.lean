import Verif.Float.Finite
import Verif.Dragonbox.Power
/-
The decimal numbers that `decode` gives.
-/
namespace Strf.Float
open Strf.Dragonbox (toDecimal toDecimal_good)
open Strf.Dragonbox.Spec (IsFinite IsShortest)

theorem expBits_lt (T : FloatT) (bits : Nat) : expBits T bits < 2 ^ T.eSize := by
  unfold expBits
  cases T <;> simp only [FloatT.mSize, FloatT.eSize, FloatT.bits] <;> omega

theorem isFinite_of {T : FloatT} {bits : Nat} (h : Finite T bits) : IsFinite T.mSize T.eSize (expBits T bits) (manBits T bits) := by
  have := expBits_lt T bits
  unfold Finite at h
  exact ⟨by omega, Nat.mod_lt _ (by positivity)⟩

/-- zero, or the result of to_decimal -/
theorem decode_cases {T : FloatT} {bits : Nat} (h : Finite T bits) :
    (expBits T bits = 0 ∧ manBits T bits = 0 ∧ (decode toDecimal T bits).m10 = 0 ∧ (decode toDecimal T bits).e10 = 0) ∨
    (¬ (expBits T bits = 0 ∧ manBits T bits = 0) ∧
      ((decode toDecimal T bits).m10, (decode toDecimal T bits).e10) = toDecimal T (expBits T bits) (manBits T bits)) := by
  unfold decode Finite at *
  dsimp only
  by_cases h0 : expBits T bits = 0 ∧ manBits T bits = 0
  · left
    rw [if_pos h0]
    exact ⟨h0.1, h0.2, rfl, rfl⟩
  · right
    rw [if_neg h0, if_neg h]
    exact ⟨h0, rfl⟩

/-- the decimal number is in range -/
theorem decode_good {T : FloatT} {bits : Nat} (h : Finite T bits) :
    GoodDec (decode toDecimal T bits).m10 (decode toDecimal T bits).e10 := by
  rcases decode_cases h with ⟨-, -, h1, h2⟩ | ⟨h0, he⟩
  · rw [h1, h2]
    exact ⟨by norm_num, by norm_num, by norm_num, fun _ => rfl, fun h => absurd rfl h⟩
  · have g := toDecimal_good (isFinite_of h) h0
    rw [← he] at g
    have hs := g.spec.stripped
    exact ⟨g.lt, g.e1, g.e2, fun h => by rw [h] at hs; exact absurd rfl hs, fun _ => hs⟩

end Strf.Float

import Verif.Dragonbox.Model
import Mathlib.Tactic.Ring
import Mathlib.Tactic.Positivity
/-
The wide multiplications of dragonbox are exact.
-/
namespace Strf.Dragonbox
open Strf.Float

theorem mul_lt32 {a b : Nat} (ha : a < 2 ^ 32) (hb : b < 2 ^ 32) : a * b ≤ (2 ^ 32 - 1) * (2 ^ 32 - 1) :=
  Nat.mul_le_mul (by omega) (by omega)

theorem split32 (x : Nat) (hx : x < 2 ^ 64) : ∃ a b, a < 2 ^ 32 ∧ b < 2 ^ 32 ∧ x = a * 2 ^ 32 + b ∧ u32 (x / 2 ^ 32) = a ∧ u32 x = b :=
  ⟨x / 2 ^ 32, x % 2 ^ 32, by omega, by omega, by omega, by unfold u32; omega, by unfold u32; omega⟩

theorem umul64_eq {x y : Nat} (hx : x < 2 ^ 32) (hy : y < 2 ^ 32) : umul64 x y = x * y := by
  have h := mul_lt32 hx hy
  unfold umul64 u64 u32
  rw [Nat.mod_eq_of_lt hx, Nat.mod_eq_of_lt hy]
  exact Nat.mod_eq_of_lt (by omega)

theorem umul128_exact {x y : Nat} (hx : x < 2 ^ 64) (hy : y < 2 ^ 64) :
    (umul128 x y).1 * 2 ^ 64 + (umul128 x y).2 = x * y ∧ (umul128 x y).1 < 2 ^ 64 ∧ (umul128 x y).2 < 2 ^ 64 := by
  obtain ⟨a, b, ha, hb, ex, e1, e2⟩ := split32 x hx
  obtain ⟨c, d, hc, hd, ey, e3, e4⟩ := split32 y hy
  unfold umul128
  dsimp only
  rw [e1, e2, e3, e4, umul64_eq ha hc, umul64_eq hb hc, umul64_eq ha hd, umul64_eq hb hd]
  have hxy : x * y = a * c * 2 ^ 64 + (a * d + b * c) * 2 ^ 32 + b * d := by rw [ex, ey]; ring
  have h1 := mul_lt32 ha hc
  have h2 := mul_lt32 hb hc
  have h3 := mul_lt32 ha hd
  have h4 := mul_lt32 hb hd
  rw [hxy]
  generalize a * c = p at *
  generalize b * c = q at *
  generalize a * d = r at *
  generalize b * d = s at *
  unfold u64 u32
  omega

theorem umul128Upper64_exact {x y : Nat} (hx : x < 2 ^ 64) (hy : y < 2 ^ 64) : umul128Upper64 x y = x * y / 2 ^ 64 := by
  obtain ⟨h, h1, h2⟩ := umul128_exact hx hy
  have e : umul128Upper64 x y = (umul128 x y).1 := rfl
  rw [e]
  omega

theorem umul192Upper64_exact {x : Nat} {y : Nat × Nat} (hx : x < 2 ^ 64) (h1 : y.1 < 2 ^ 64) (h2 : y.2 < 2 ^ 64) :
    umul192Upper64 x y = x * (y.1 * 2 ^ 64 + y.2) / 2 ^ 128 := by
  unfold umul192Upper64 addAssign
  dsimp only
  rw [umul128Upper64_exact hx h2]
  obtain ⟨e, l1, l2⟩ := umul128_exact hx h1
  have hb : x * y.1 ≤ (2 ^ 64 - 1) * (2 ^ 64 - 1) := Nat.mul_le_mul (by omega) (by omega)
  have hb2 : x * y.2 ≤ (2 ^ 64 - 1) * (2 ^ 64 - 1) := Nat.mul_le_mul (by omega) (by omega)
  have e2 : x * (y.1 * 2 ^ 64 + y.2) = x * y.1 * 2 ^ 64 + x * y.2 := by ring
  rw [e2]
  generalize x * y.1 = p at *
  generalize x * y.2 = q at *
  generalize (umul128 x y.1).1 = h at *
  generalize (umul128 x y.1).2 = l at *
  unfold u64
  split <;> omega

theorem umul192Middle64_exact {x : Nat} {y : Nat × Nat} (hx : x < 2 ^ 64) (h2 : y.2 < 2 ^ 64) :
    umul192Middle64 x y = x * (y.1 * 2 ^ 64 + y.2) / 2 ^ 64 % 2 ^ 64 := by
  unfold umul192Middle64
  rw [umul128Upper64_exact hx h2]
  have e2 : x * (y.1 * 2 ^ 64 + y.2) = x * y.1 * 2 ^ 64 + x * y.2 := by ring
  rw [e2]
  generalize x * y.1 = p
  generalize x * y.2 = q
  unfold u64
  omega

theorem umul96Upper32_exact {x y : Nat} (hx : x < 2 ^ 32) (hy : y < 2 ^ 64) : umul96Upper32 x y = x * y / 2 ^ 64 := by
  obtain ⟨c, d, hc, hd, ey, e3, e4⟩ := split32 y hy
  unfold umul96Upper32
  dsimp only
  rw [e3, e4, umul64_eq hx hc, umul64_eq hx hd]
  have hxy : x * y = x * c * 2 ^ 32 + x * d := by rw [ey]; ring
  have h2 := mul_lt32 hx hc
  have h4 := mul_lt32 hx hd
  rw [hxy]
  generalize x * c = q at *
  generalize x * d = s at *
  unfold u64 u32
  omega

/-- the number a cache entry stands for -/
def entry (T : FloatT) (c : Nat × Nat) : Nat := match T with | .float => c.1 | .double => c.1 * 2 ^ 64 + c.2

/-- an entry fits its type, and its highest bit is set -/
def EntryOk (T : FloatT) (c : Nat × Nat) : Prop := c.1 < 2 ^ 64 ∧ c.2 < 2 ^ 64 ∧ 2 ^ (cacheBits T - 1) ≤ entry T c

instance (T : FloatT) (c : Nat × Nat) : Decidable (EntryOk T c) := by unfold EntryOk; infer_instance

theorem computeMul_exact {T : FloatT} {u : Nat} {c : Nat × Nat} (hu : u < 2 ^ T.bits) (hc : EntryOk T c) :
    computeMul T u c = u * entry T c / 2 ^ cacheBits T := by
  cases T
  · exact umul96Upper32_exact hu hc.1
  · exact umul192Upper64_exact hu hc.1 hc.2.1

theorem bit_shift (a b i : Nat) (hi : i < b) : a % 2 ^ b / 2 ^ i % 2 = a / 2 ^ i % 2 := by
  obtain ⟨j, rfl⟩ : ∃ j, b = i + (j + 1) := ⟨b - i - 1, by omega⟩
  rw [Nat.pow_add, Nat.mod_mul_right_div_self, Nat.pow_succ, Nat.mul_comm, Nat.mod_mul_right_mod]

/-- The parity is that of `⌊2f·entry / 2^(bits - β)⌋` -/
theorem parity_exact {T : FloatT} {u : Nat} {c : Nat × Nat} {b : Nat} (hu : u < 2 ^ T.bits) (hc : EntryOk T c)
    (h1 : 1 ≤ b) (h2 : b < 64) :
    computeMulParity T u c b = decide (u * entry T c / 2 ^ (cacheBits T - b) % 2 ≠ 0) := by
  cases T
  · unfold computeMulParity umul96Lower64 u64
    simp only [entry, cacheBits]
    rw [bit_shift _ _ _ (by omega)]
    exact decide_eq_decide.mpr Iff.rfl
  · unfold computeMulParity
    simp only [entry, cacheBits]
    rw [umul192Middle64_exact hu hc.2.1, bit_shift _ _ _ (by omega), Nat.div_div_eq_div_mul, ← Nat.pow_add,
      show 64 + (64 - b) = 128 - b by omega]
    exact decide_eq_decide.mpr Iff.rfl

theorem delta_exact {T : FloatT} {c : Nat × Nat} {b : Nat} (hc : EntryOk T c) (hb : b < 31) :
    computeDelta T c b = 2 * entry T c / 2 ^ (cacheBits T - b) := by
  have h1 : c.1 < 2 ^ 64 := hc.1
  have h2 : c.2 < 2 ^ 64 := hc.2.1
  unfold computeDelta u32
  have e1 : c.1 / 2 ^ (64 - 1 - b) < 2 ^ 32 := by
    rw [Nat.div_lt_iff_lt_mul (by positivity), ← Nat.pow_add]
    refine lt_of_lt_of_le h1 (Nat.pow_le_pow_right (by norm_num) (by omega))
  rw [Nat.mod_eq_of_lt e1]
  have key : ∀ m Q, b < Q → 2 * m / 2 ^ (Q - b) = m / 2 ^ (Q - 1 - b) := by
    intro m Q hQ
    rw [show Q - b = (Q - 1 - b) + 1 by omega, Nat.pow_succ, Nat.mul_comm (2 ^ _) 2, Nat.mul_div_mul_left _ _ (by norm_num)]
  cases T
  · simp only [entry, cacheBits]
    rw [key _ _ (by omega)]
  · simp only [entry, cacheBits]
    rw [key _ _ (by omega), show 128 - 1 - b = 64 + (64 - 1 - b) by omega, Nat.pow_add, ← Nat.div_div_eq_div_mul]
    congr 1
    omega

end Strf.Dragonbox

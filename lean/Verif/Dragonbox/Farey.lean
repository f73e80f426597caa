import Mathlib.Tactic.Ring
import Mathlib.Tactic.Linarith
import Mathlib.Tactic.Positivity
/-
Two fractions `a/b < c/d` with `b·c - a·d = 1` have no fraction with a denominator less than `b + d` between them. So the
integer part of `n·x`, for `n < b + d`, is the same for all `x` of `[a/b, c/d)`.
-/
namespace Strf.Dragonbox

/-- `X/D` is in `[a/b, c/d)` -/
def Between (a b c d X D : Nat) : Prop := a * D ≤ X * b ∧ X * d < c * D

theorem floor_le (a b c d : Nat) (h : b * c = a * d + 1) (hb : 0 < b) (X D X' D' : Nat) (hD : 0 < D) (hD' : 0 < D')
    (h1 : Between a b c d X D) (h2 : Between a b c d X' D') (n : Nat) (hn : n < b + d) : n * X / D ≤ n * X' / D' := by
  rcases Nat.eq_zero_or_pos n with rfl | hn0
  · simp
  rw [Nat.le_div_iff_mul_le hD']
  by_contra hc
  have hlt : n * X' < n * X / D * D' := by omega
  have hle : n * X / D * D ≤ n * X := Nat.div_mul_le_self _ _
  generalize n * X / D = m at *
  -- a/b ≤ X'/D' < m/n ≤ X/D < c/d
  have e1 : a * n < m * b := by
    have t1 : n * (a * D') ≤ n * (X' * b) := Nat.mul_le_mul_left _ h2.1
    have t2 : n * X' * b < m * D' * b := Nat.mul_lt_mul_of_pos_right hlt hb
    have t3 : a * n * D' < m * b * D' := by
      calc a * n * D' = n * (a * D') := by ring
        _ ≤ n * (X' * b) := t1
        _ = n * X' * b := by ring
        _ < m * D' * b := t2
        _ = m * b * D' := by ring
    exact lt_of_mul_lt_mul_right t3 (Nat.zero_le _)
  have e2 : m * d < c * n := by
    have t1 : m * D * d ≤ n * X * d := Nat.mul_le_mul_right _ hle
    have t2 : n * (X * d) < n * (c * D) := Nat.mul_lt_mul_of_pos_left h1.2 hn0
    have t3 : m * d * D < c * n * D := by
      calc m * d * D = m * D * d := by ring
        _ ≤ n * X * d := t1
        _ = n * (X * d) := by ring
        _ < n * (c * D) := t2
        _ = c * n * D := by ring
    exact lt_of_mul_lt_mul_right t3 (Nat.zero_le _)
  obtain ⟨p, hp⟩ : ∃ p, m * b = a * n + 1 + p := ⟨m * b - (a * n + 1), by omega⟩
  obtain ⟨q, hq⟩ : ∃ q, c * n = m * d + 1 + q := ⟨c * n - (m * d + 1), by omega⟩
  have e3 : n * (b * c) = n * (a * d + 1) := by rw [h]
  have e4 : b * (c * n) = b * (m * d + 1 + q) := by rw [hq]
  have e5 : d * (m * b) = d * (a * n + 1 + p) := by rw [hp]
  have : n = b + b * q + d + d * p := by nlinarith
  have := Nat.zero_le (b * q)
  have := Nat.zero_le (d * p)
  omega

theorem floor_eq (a b c d : Nat) (h : b * c = a * d + 1) (hb : 0 < b) (X D X' D' : Nat) (hD : 0 < D) (hD' : 0 < D')
    (h1 : Between a b c d X D) (h2 : Between a b c d X' D') (n : Nat) (hn : n < b + d) : n * X / D = n * X' / D' :=
  Nat.le_antisymm (floor_le a b c d h hb X D X' D' hD hD' h1 h2 n hn) (floor_le a b c d h hb X' D' X D hD' hD h2 h1 n hn)

end Strf.Dragonbox

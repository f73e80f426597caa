import Verif.Dragonbox.Check
import Mathlib.Data.Rat.Defs
import Mathlib.Algebra.Order.Ring.Rat
import Mathlib.Algebra.Order.AbsoluteValue.Basic
import Mathlib.Tactic.NormNum
import Mathlib.Tactic.Linarith
import Mathlib.Tactic.SplitIfs
/-
The algorithm of compute_nearest_normal without overflow, as a function of the integer parts of the scaled ends of the
interval, and what it computes. `Y` is the scaled value, `x` half the length of the interval.
-/
namespace Strf.Dragonbox
open Strf.Float

/-- the interval -/
def InI (closed : Bool) (Y x t : ℚ) : Prop := if closed then Y - x ≤ t ∧ t ≤ Y + x else Y - x < t ∧ t < Y + x

theorem InI.weak {closed : Bool} {Y x t : ℚ} (h : InI closed Y x t) : Y - x ≤ t ∧ t ≤ Y + x := by
  unfold InI at h; split_ifs at h
  · exact h
  · exact ⟨h.1.le, h.2.le⟩

theorem InI.of_strict {closed : Bool} {Y x t : ℚ} (h1 : Y - x < t) (h2 : t < Y + x) : InI closed Y x t := by
  unfold InI; split_ifs
  · exact ⟨h1.le, h2.le⟩
  · exact ⟨h1, h2⟩

/-- from small_divisor_case_label; `A = 10^κ` -/
def idealSmall (A δ fn : Nat) (intY : Bool) (s r : Nat) : Nat :=
  let D := r - δ / 2 + A / 2
  let s' := s * 10 + D / A
  if D % A = 0 then
    if fn % 2 ≠ (r - δ / 2) % 2 then s' - 1
    else if intY then breakTie s'
    else s'
  else s'

/-- compute_nearest_normal: the significand, and whether its exponent is that of the big divisor -/
def ideal (A z δ fl fn : Nat) (closed intR intL intY : Bool) : Nat × Bool :=
  let B := A * 10
  let s := z / B
  let r := z % B
  if r > δ then (idealSmall A δ fn intY s r, false)
  else if r < δ then
    if r = 0 ∧ closed = false ∧ intR = true then (idealSmall A δ fn intY (s - 1) B, false) else (s, true)
  else
    if (closed = false ∨ intL = false) ∧ fl % 2 = 0 then (idealSmall A δ fn intY s r, false) else (s, true)

/-- what the inputs are -/
structure Inputs (A : Nat) (Y x : ℚ) (z δ fl fn : Nat) (intR intL intY : Bool) : Prop where
  z1 : (z : ℚ) ≤ Y + x
  z2 : Y + x < z + 1
  d1 : (δ : ℚ) ≤ 2 * x
  d2 : 2 * x < δ + 1
  l1 : (fl : ℚ) ≤ Y - x
  l2 : Y - x < fl + 1
  n1 : (fn : ℚ) ≤ Y
  n2 : Y < fn + 1
  iR : intR = true ↔ Y + x = z
  iL : intL = true ↔ Y - x = fl
  iY : intY = true ↔ Y = fn
  pos : 0 < Y - x
  a0 : 0 < A
  aev : A % 2 = 0
  a1 : (A : ℚ) ≤ 2 * x
  a2 : 2 * x < A * 10
  /-- the value is an even multiple of half the length -/
  ev : ∃ k : Nat, Y = k * (2 * x)

theorem cast_lt_int {a b : Nat} (h : (a : ℚ) < b) : a < b := by exact_mod_cast h
theorem cast_lt_succ {a b : Nat} (h : (a : ℚ) < b + 1) : a ≤ b := by
  have : (a : ℚ) < ((b + 1 : Nat) : ℚ) := by push_cast; exact h
  exact Nat.lt_succ_iff.mp (by exact_mod_cast this)

/-- the distance to the nearest multiple -/
theorem nearest_of_le_half {A : ℚ} {Y : ℚ} {t : Nat} (hA : 0 < A) (h : |t * A - Y| ≤ A / 2) (c : Nat) : |t * A - Y| ≤ |c * A - Y| := by
  by_cases hc : c = t
  · rw [hc]
  have h1 : A ≤ |(c : ℚ) * A - t * A| := by
    rw [← sub_mul, abs_mul, abs_of_pos hA]
    have : (1 : ℚ) ≤ |(c : ℚ) - t| := by
      have h2 : ((c : ℤ) - t) ≠ 0 := by omega
      have h3 : (1 : ℤ) ≤ |(c : ℤ) - t| := Int.one_le_abs h2
      have h4 : ((1 : ℤ) : ℚ) ≤ ((|(c : ℤ) - t| : ℤ) : ℚ) := by exact_mod_cast h3
      push_cast at h4
      exact h4
    nlinarith
  have h2 : |(c : ℚ) * A - t * A| ≤ |c * A - Y| + |t * A - Y| := by
    have : (c : ℚ) * A - t * A = (c * A - Y) - (t * A - Y) := by ring
    rw [this]; exact abs_sub _ _
  linarith

section
variable {A : Nat} {Y x : ℚ} {z δ fl fn : Nat} {intR intL intY closed : Bool}

/-- the small divisor: `s·B + r = z`, no multiple of `B` in the interval -/
theorem idealSmall_spec (H : Inputs A Y x z δ fl fn intR intL intY) (s r : Nat) (hz : z = s * (A * 10) + r) (hr : r ≤ A * 10)
    (hd : δ ≤ r) :
    let t := idealSmall A δ fn intY s r
    InI closed Y x (t * A) ∧ (∀ c : Nat, |(t : ℚ) * A - Y| ≤ |c * A - Y|) ∧ 1 ≤ t ∧ t ≤ s * 10 + 10 := by
  obtain ⟨h, hA⟩ : ∃ h, A = 2 * h := ⟨A / 2, by have := H.aev; omega⟩
  have hAq : (A : ℚ) = 2 * h := by rw [hA]; push_cast; ring
  have hAδ : A ≤ δ := cast_lt_succ (lt_of_le_of_lt H.a1 H.d2)
  obtain ⟨ε, hε⟩ : ∃ ε, ε = δ / 2 := ⟨_, rfl⟩
  have hhε : h ≤ ε := by omega
  have e1 : (ε : ℚ) ≤ x := by
    have : ((2 * ε : Nat) : ℚ) ≤ (δ : ℚ) := by exact_mod_cast (show 2 * ε ≤ δ by omega)
    push_cast at this; linarith [H.d1]
  have e2 : x < ε + 1 := by
    have : ((δ + 1 : Nat) : ℚ) ≤ ((2 * ε + 2 : Nat) : ℚ) := by exact_mod_cast (show δ + 1 ≤ 2 * ε + 2 by omega)
    push_cast at this; linarith [H.d2]
  have hA0 : (0 : ℚ) < A := by exact_mod_cast H.a0
  have hh0 : (0 : ℚ) < h := by linarith
  have hh1 : (1 : ℚ) ≤ h := by
    have : 0 < h := by have := H.a0; omega
    exact_mod_cast this
  -- w = z - ε + h = s·B + D
  obtain ⟨D, hD⟩ : ∃ D, D = r - δ / 2 + A / 2 := ⟨_, rfl⟩
  have hD1 : D + ε = r + h := by omega
  have hDB : D ≤ A * 10 := by omega
  obtain ⟨q, hq⟩ : ∃ q, q = D / A := ⟨_, rfl⟩
  have hdiv : D = q * A + D % A := by rw [hq, Nat.mul_comm]; exact (Nat.div_add_mod _ _).symm
  have hmod : D % A < A := Nat.mod_lt _ H.a0
  have hq10 : q ≤ 10 := by
    rw [hq]
    calc D / A ≤ A * 10 / A := Nat.div_le_div_right hDB
      _ = 10 := Nat.mul_div_cancel_left _ H.a0
  obtain ⟨t0, ht0⟩ : ∃ t0, t0 = s * 10 + q := ⟨_, rfl⟩
  obtain ⟨rem, hrem⟩ : ∃ rem, rem = D % A := ⟨_, rfl⟩
  rw [← hrem] at hdiv hmod
  -- z - ε + h = t0·A + rem
  have hw : (z : ℚ) - ε + h = t0 * A + rem := by
    have e : z + h = t0 * A + rem + ε := by
      rw [hz, ht0]
      have : (s * 10 + q) * A = s * (A * 10) + q * A := by ring
      rw [this]; omega
    have e' : ((z + h : Nat) : ℚ) = ((t0 * A + rem + ε : Nat) : ℚ) := by rw [e]
    push_cast at e'; linarith
  have y1 : (z : ℚ) - ε - 1 < Y := by linarith [H.z1, H.z2]
  have y2 : Y < z - ε + 1 := by linarith [H.z1, H.z2]
  have finish : ∀ t : Nat, |(t : ℚ) * A - Y| ≤ h → t ≤ s * 10 + 10 →
      InI closed Y x (t * A) ∧ (∀ c : Nat, |(t : ℚ) * A - Y| ≤ |c * A - Y|) ∧ 1 ≤ t ∧ t ≤ s * 10 + 10 := by
    intro t ht htb
    have hx : (h : ℚ) ≤ x := by linarith [H.a1]
    have hI : InI closed Y x (t * A) := by
      rcases lt_or_eq_of_le (le_trans ht hx) with hlt | heq
      · have := abs_lt.mp hlt
        exact InI.of_strict (by linarith) (by linarith)
      · -- then x = h and Y is a multiple of A
        exfalso
        have hxh : x = h := le_antisymm (by linarith) hx
        obtain ⟨k, hk⟩ := H.ev
        have hkA : Y = k * A := by rw [hk, hxh, hAq]
        have hn := nearest_of_le_half hA0 (show |(t : ℚ) * A - Y| ≤ A / 2 by linarith) k
        rw [hkA, sub_self, abs_zero] at hn
        rw [hkA] at heq
        linarith
    refine ⟨hI, nearest_of_le_half hA0 (by linarith), ?_, htb⟩
    by_contra h0
    have h00 : t = 0 := by omega
    have := hI.weak.1
    rw [h00] at this
    push_cast at this
    linarith [H.pos]
  -- the integer part of Y
  have hfn : fn = z - ε ∨ fn + 1 = z - ε := by
    have hεz : ε ≤ z := by
      rw [hz]
      have : ε ≤ r := by omega
      have := Nat.zero_le (s * (A * 10))
      omega
    have c1 : ((z - ε : Nat) : ℚ) = z - ε := by push_cast [hεz]; ring
    have g1 : ((z - ε : Nat) : ℚ) < ((fn + 1 : Nat) : ℚ) + 1 := by rw [c1]; push_cast; linarith [H.n2]
    have g2 : (fn : ℚ) < ((z - ε : Nat) : ℚ) + 1 := by rw [c1]; linarith [H.n1]
    have := cast_lt_succ g1
    have := cast_lt_succ g2
    omega
  have hzε : ε ≤ z ∧ (z - ε) % 2 = (r - δ / 2) % 2 := by
    have e : s * (A * 10) = 2 * (s * h * 10) := by rw [hA]; ring
    have hz2 := hz
    rw [e] at hz2
    omega
  have czε : ((z - ε : Nat) : ℚ) = z - ε := by push_cast [hzε.1]; ring
  show InI closed Y x ((idealSmall A δ fn intY s r : Nat) * A) ∧ _
  unfold idealSmall
  dsimp only
  rw [← hD, ← hrem, ← hq, ← ht0]
  by_cases hr0 : rem = 0
  · rw [if_pos hr0]
    rw [hr0] at hw
    push_cast at hw
    by_cases hp : fn % 2 ≠ (r - δ / 2) % 2
    · rw [if_pos hp]
      have hf : fn + 1 = z - ε := by omega
      have hf' : (fn : ℚ) + 1 = z - ε := by rw [← czε, ← hf]; push_cast; ring
      have ht1 : 1 ≤ t0 := by
        by_contra h0
        have : t0 = 0 := by omega
        rw [this] at hw
        push_cast at hw
        have : (0 : ℚ) ≤ fn := Nat.cast_nonneg _
        linarith
      have ct : ((t0 - 1 : Nat) : ℚ) = t0 - 1 := by push_cast [ht1]; ring
      apply finish
      · rw [ct, abs_le]
        have e : ((t0 : ℚ) - 1) * A = t0 * A - A := by ring
        rw [e]
        have := H.n2
        constructor <;> linarith
      · omega
    · rw [if_neg hp]
      have hf : fn = z - ε := by omega
      have hf' : (fn : ℚ) = z - ε := by rw [← czε, ← hf]
      have hn1 := H.n1
      have hn2 := H.n2
      have base : |(t0 : ℚ) * A - Y| ≤ h := by
        rw [abs_le]; constructor <;> linarith
      split_ifs with hy
      · have hYe := H.iY.mp hy
        unfold breakTie
        split_ifs with hev
        · exact finish _ base (by omega)
        · apply finish
          · have ht1 : 1 ≤ t0 := by omega
            have ct : ((t0 - 1 : Nat) : ℚ) = t0 - 1 := by push_cast [ht1]; ring
            rw [ct, abs_le]
            have e : ((t0 : ℚ) - 1) * A = t0 * A - A := by ring
            rw [e]
            constructor <;> linarith
          · omega
      · exact finish _ base (by omega)
  · rw [if_neg hr0]
    have hr1 : (1 : ℚ) ≤ rem := by exact_mod_cast (show 1 ≤ rem by omega)
    have hr2 : (rem : ℚ) + 1 ≤ A := by exact_mod_cast (show rem + 1 ≤ A by omega)
    apply finish
    · rw [abs_le]
      constructor <;> linarith
    · omega

/-- The result of compute_nearest_normal: either the only multiple of the big divisor in the interval, or, when there is
none, the multiple of the small divisor closest to the value, which is in the interval. -/
theorem ideal_spec (H : Inputs A Y x z δ fl fn intR intL intY) :
    let t := ideal A z δ fl fn closed intR intL intY
    (t.2 = true ∧ 1 ≤ t.1 ∧ t.1 ≤ z / (A * 10) ∧ InI closed Y x (t.1 * (A * 10))) ∨
    (t.2 = false ∧ 1 ≤ t.1 ∧ t.1 ≤ z / (A * 10) * 10 + 10 ∧ (∀ c : Nat, ¬ InI closed Y x (c * (A * 10))) ∧
      InI closed Y x (t.1 * A) ∧ ∀ c : Nat, |(t.1 : ℚ) * A - Y| ≤ |c * A - Y|) := by
  have hB : 0 < A * 10 := by have := H.a0; omega
  obtain ⟨s, hs⟩ : ∃ s, s = z / (A * 10) := ⟨_, rfl⟩
  obtain ⟨r, hr⟩ : ∃ r, r = z % (A * 10) := ⟨_, rfl⟩
  have hz : z = s * (A * 10) + r := by rw [hs, hr, Nat.mul_comm (z / _)]; exact (Nat.div_add_mod _ _).symm
  have hrB : r < A * 10 := by rw [hr]; exact Nat.mod_lt _ hB
  have hzq : (z : ℚ) = s * (A * 10) + r := by
    have : ((z : Nat) : ℚ) = ((s * (A * 10) + r : Nat) : ℚ) := by rw [← hz]
    push_cast at this; linarith
  have z1 := H.z1
  have z2 := H.z2
  have d1 := H.d1
  have d2 := H.d2
  have l1 := H.l1
  have l2 := H.l2
  have hA0 : (0 : ℚ) < A := by exact_mod_cast H.a0
  -- a multiple of B in the interval is at most s
  have hle : ∀ c : Nat, InI closed Y x (c * (A * 10)) → c ≤ s := by
    intro c hc
    have h1 : ((c * (A * 10) : Nat) : ℚ) < (z : ℚ) + 1 := by push_cast; linarith [hc.weak.2]
    have h2 := cast_lt_succ h1
    rw [hs, Nat.le_div_iff_mul_le hB]
    exact h2
  -- and those less than s are below the interval
  have hlt : ∀ c : Nat, c < s → ¬ InI closed Y x (c * (A * 10)) := by
    intro c hc hin
    have h1 : ((c + 1 : Nat) : ℚ) ≤ s := by exact_mod_cast hc
    push_cast at h1
    have h2 : ((c : ℚ) + 1) * (A * 10) ≤ s * (A * 10) := by
      apply mul_le_mul_of_nonneg_right h1; positivity
    have hr0 : (0 : ℚ) ≤ r := Nat.cast_nonneg _
    have := hin.weak.1
    have := H.a2
    have e : ((c : ℚ) + 1) * (A * 10) = c * (A * 10) + A * 10 := by ring
    rw [e] at h2
    linarith
  have none_of : ¬ InI closed Y x (s * (A * 10)) → ∀ c : Nat, ¬ InI closed Y x (c * (A * 10)) := by
    intro hn c hc
    rcases Nat.lt_or_ge c s with h | h
    · exact hlt c h hc
    · have : c = s := Nat.le_antisymm (hle c hc) h
      rw [this] at hc; exact hn hc
  have pos_of : InI closed Y x (s * (A * 10)) → 1 ≤ s := by
    intro hin
    by_contra h0
    have : s = 0 := by omega
    have h1 := hin.weak.1
    rw [this] at h1
    push_cast at h1
    linarith [H.pos]
  have hAδ : A ≤ δ := cast_lt_succ (lt_of_le_of_lt H.a1 H.d2)
  intro t
  have ht : t = ideal A z δ fl fn closed intR intL intY := rfl
  unfold ideal at ht
  dsimp only at ht
  rw [← hs, ← hr] at ht
  rw [← hs]
  by_cases c1 : r > δ
  · rw [if_pos c1] at ht
    right
    have hn : ¬ InI closed Y x (s * (A * 10)) := by
      intro hin
      have h1 := hin.weak.1
      have h2 : ((δ + 1 : Nat) : ℚ) ≤ r := by exact_mod_cast c1
      push_cast at h2
      linarith
    obtain ⟨g1, g2, g3, g4⟩ := idealSmall_spec (closed := closed) H s r hz hrB.le c1.le
    rw [ht]
    exact ⟨rfl, g3, g4, none_of hn, g1, g2⟩
  rw [if_neg c1] at ht
  by_cases c2 : r < δ
  · rw [if_pos c2] at ht
    have h2 : ((r + 1 : Nat) : ℚ) ≤ δ := by exact_mod_cast c2
    push_cast at h2
    by_cases c3 : r = 0 ∧ closed = false ∧ intR = true
    · rw [if_pos c3] at ht
      right
      obtain ⟨c3, c4, c5⟩ := c3
      have hR := H.iR.mp c5
      have hn : ¬ InI closed Y x (s * (A * 10)) := by
        intro hin
        unfold InI at hin
        rw [if_neg (by rw [c4]; decide)] at hin
        rw [c3] at hzq
        push_cast at hzq
        linarith [hin.2]
      have hs1 : 1 ≤ s := by
        by_contra h0
        have h00 : s = 0 := by omega
        rw [h00, c3] at hz
        rw [hz] at z2
        push_cast at z2
        have : (A : ℚ) ≤ 2 * x := H.a1
        have hA2 : (2 : ℚ) ≤ A := by
          have h2A : 2 ≤ A := by have := H.a0; have := H.aev; omega
          exact_mod_cast h2A
        linarith [H.pos]
      have hδB : δ ≤ A * 10 := by
        have : (δ : ℚ) < ((A * 10 : Nat) : ℚ) := by push_cast; linarith [H.a2]
        exact (cast_lt_int this).le
      have hz' : z = (s - 1) * (A * 10) + A * 10 := by
        rw [hz, c3, Nat.add_zero]
        obtain ⟨u, rfl⟩ : ∃ u, s = u + 1 := ⟨s - 1, by omega⟩
        rw [Nat.add_sub_cancel]; ring
      obtain ⟨g1, g2, g3, g4⟩ := idealSmall_spec (closed := closed) H (s - 1) (A * 10) hz' (Nat.le_refl _) hδB
      rw [ht]
      exact ⟨rfl, g3, by dsimp only; omega, none_of hn, g1, g2⟩
    · rw [if_neg c3] at ht
      left
      have hin : InI closed Y x (s * (A * 10)) := by
        unfold InI
        have hr0 : (0 : ℚ) ≤ r := Nat.cast_nonneg _
        split_ifs with hc
        · constructor <;> linarith
        · refine ⟨by linarith, ?_⟩
          by_cases hrz : r = 0
          · have hR : ¬ Y + x = z := fun h => c3 ⟨hrz, by simpa using hc, H.iR.mpr h⟩
            have : (z : ℚ) < Y + x := lt_of_le_of_ne z1 (fun h => hR h.symm)
            rw [hrz] at hzq
            push_cast at hzq
            linarith
          · have : (1 : ℚ) ≤ r := by exact_mod_cast (show 1 ≤ r by omega)
            linarith
      rw [ht]
      exact ⟨rfl, pos_of hin, Nat.le_refl _, hin⟩
  rw [if_neg c2] at ht
  have hrδ : r = δ := by omega
  have hrq : (r : ℚ) = δ := by rw [hrδ]
  -- the integer part of the left end
  have hs1z : fl = s * (A * 10) ∨ fl + 1 = s * (A * 10) := by
    have c1 : ((s * (A * 10) : Nat) : ℚ) = s * (A * 10) := by push_cast; ring
    have g1 : ((s * (A * 10) : Nat) : ℚ) < ((fl + 1 : Nat) : ℚ) + 1 := by rw [c1]; push_cast; linarith
    have g2 : (fl : ℚ) < ((s * (A * 10) : Nat) : ℚ) + 1 := by rw [c1]; linarith
    have := cast_lt_succ g1
    have := cast_lt_succ g2
    omega
  have hev : s * (A * 10) % 2 = 0 := by
    have : s * (A * 10) = 2 * (s * A * 5) := by ring
    omega
  by_cases c4 : (closed = false ∨ intL = false) ∧ fl % 2 = 0
  · rw [if_pos c4] at ht
    right
    have hfl : fl = s * (A * 10) := by omega
    have hflq : (fl : ℚ) = s * (A * 10) := by rw [hfl]; push_cast; ring
    have hn : ¬ InI closed Y x (s * (A * 10)) := by
      intro hin
      rcases c4.1 with hc | hc
      · unfold InI at hin
        rw [if_neg (by rw [hc]; decide)] at hin
        linarith [hin.1]
      · have h1 := hin.weak.1
        have : intL = true := H.iL.mpr (by linarith)
        rw [hc] at this; exact absurd this (by decide)
    obtain ⟨g1, g2, g3, g4⟩ := idealSmall_spec (closed := closed) H s r hz hrB.le (by omega)
    rw [ht]
    exact ⟨rfl, g3, g4, none_of hn, g1, g2⟩
  · rw [if_neg c4] at ht
    left
    have hδ0 : (0 : ℚ) < δ := by
      have : 0 < δ := by have := H.a0; omega
      exact_mod_cast this
    have hin : InI closed Y x (s * (A * 10)) := by
      rcases hs1z with hfl | hfl
      · have hflq : (fl : ℚ) = s * (A * 10) := by rw [hfl]; push_cast; ring
        have hcl : closed = true ∧ intL = true := by
          constructor
          · by_contra hc
            exact c4 ⟨Or.inl (by simpa using hc), by omega⟩
          · by_contra hc
            exact c4 ⟨Or.inr (by simpa using hc), by omega⟩
        have hL := H.iL.mp hcl.2
        unfold InI
        rw [if_pos hcl.1]
        constructor <;> linarith
      · have hflq : (fl : ℚ) + 1 = s * (A * 10) := by
          have : ((fl + 1 : Nat) : ℚ) = ((s * (A * 10) : Nat) : ℚ) := by rw [hfl]
          push_cast at this; linarith
        exact InI.of_strict (by linarith) (by linarith)
    rw [ht]
    exact ⟨rfl, pos_of hin, Nat.le_refl _, hin⟩

end

end Strf.Dragonbox

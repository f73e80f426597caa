import Verif.Dragonbox.Ideal
import Mathlib.Algebra.Order.Field.Power
import Mathlib.Tactic.FieldSimp
import Mathlib.Tactic.IntervalCases
/-
compute_nearest_normal does not overflow, and its approximations are exact: it is `ideal`.
-/
namespace Strf.Dragonbox
open Strf.Float

/-- the binary exponents -/
def ExpOk (T : FloatT) (e : Int) : Prop := minExp T ≤ e ∧ e < minExp T + expCount T

theorem check_all (T : FloatT) : ∀ i < expCount T, check T i = true := by
  cases T
  · exact check_float
  · exact check_double

theorem check_of {T : FloatT} {e : Int} (h : ExpOk T e) :
    approxCheck T e = true ∧ RangesOk T e ∧ CasesOk T e := by
  have hi := check_all T (e - minExp T).toNat (by have := h.1; have := h.2; omega)
  have he : minExp T + ((e - minExp T).toNat : Int) = e := by have := h.1; omega
  unfold check at hi
  rw [he] at hi
  simp only [Bool.and_eq_true, decide_eq_true_eq] at hi
  exact ⟨hi.1.1, hi.1.2, hi.2⟩

theorem den_pos (T : FloatT) (e : Int) : 0 < den T e := by unfold den; positivity

/-- `⌊n·2^(e-1)·10^k⌋` -/
def floorOf (T : FloatT) (e : Int) (n : Nat) : Nat := n * num T e / den T e
/-- is `n·2^(e-1)·10^k` an integer? -/
def intOf (T : FloatT) (e : Int) (n : Nat) : Bool := decide (n * num T e % den T e = 0)

theorem approx_exact {T : FloatT} {e : Int} (h : ExpOk T e) (n : Nat) (hn : n ≤ bound T) :
    n * (entry T (getCache T (kOf T e)) * 2 ^ (betaOf T e).toNat) / 2 ^ cacheBits T = floorOf T e n := by
  have hc := (check_of h).1
  unfold approxCheck at hc
  dsimp only at hc
  simp only [Bool.and_eq_true, beq_iff_eq, Nat.blt_eq, Nat.ble_eq] at hc
  obtain ⟨⟨⟨⟨⟨⟨h1, h2⟩, h3⟩, h4⟩, h5⟩, h6⟩, h7⟩ := hc
  unfold floorOf
  exact floor_eq _ _ _ _ h1 h2 _ _ _ _ (by positivity) (den_pos T e) ⟨h6, h7⟩ ⟨h4, h5⟩ n (by omega)

/-- the betas as natural numbers -/
theorem beta_nat {T : FloatT} {e : Int} (h : ExpOk T e) : 1 ≤ (betaOf T e).toNat ∧ (betaOf T e).toNat ≤ 9 := by
  have hr := (check_of h).2.1
  have := hr.b1
  have := hr.b2
  omega

theorem entry_shift {T : FloatT} {e : Int} (h : ExpOk T e) (n : Nat) (hn : n ≤ bound T) :
    n * entry T (getCache T (kOf T e)) / 2 ^ (cacheBits T - (betaOf T e).toNat) = floorOf T e n := by
  rw [← approx_exact h n hn, ← Nat.mul_assoc]
  have hb := beta_nat h
  have hq : cacheBits T = (cacheBits T - (betaOf T e).toNat) + (betaOf T e).toNat := by cases T <;> simp only [cacheBits] <;> omega
  conv_rhs => rw [hq, Nat.pow_add]
  rw [Nat.mul_div_mul_right _ _ (by positivity)]

theorem bound_lt (T : FloatT) : bound T < 2 ^ T.bits := by cases T <;> decide

theorem two_le_bound (T : FloatT) : 4 ≤ bound T := by cases T <;> decide

theorem mul_ok {T : FloatT} {e : Int} (h : ExpOk T e) (n : Nat) (hn : n < bound T) :
    computeMul T (cu T (n * 2 ^ (betaOf T e).toNat)) (getCache T (kOf T e)) = floorOf T e n := by
  have hr := (check_of h).2.1
  have hlt : n * 2 ^ (betaOf T e).toNat < 2 ^ T.bits :=
    lt_of_lt_of_le (Nat.mul_lt_mul_of_pos_right hn (by positivity)) hr.shift
  unfold cu
  rw [Nat.mod_eq_of_lt hlt, computeMul_exact hlt hr.entry, ← approx_exact h n hn.le, Nat.mul_right_comm, Nat.mul_assoc]

theorem delta_ok {T : FloatT} {e : Int} (h : ExpOk T e) :
    computeDelta T (getCache T (kOf T e)) (betaOf T e).toNat = floorOf T e 2 := by
  have hr := (check_of h).2.1
  rw [delta_exact hr.entry (by have := beta_nat h; omega), entry_shift h 2 (by have := two_le_bound T; omega)]

theorem parity_ok {T : FloatT} {e : Int} (h : ExpOk T e) (n : Nat) (hn : n < bound T) :
    computeMulParity T n (getCache T (kOf T e)) (betaOf T e).toNat = decide (floorOf T e n % 2 ≠ 0) := by
  have hr := (check_of h).2.1
  rw [parity_exact (lt_trans hn (bound_lt T)) hr.entry (beta_nat h).1 (by have := beta_nat h; omega), entry_shift h n hn.le]

/-! ## is_product_integer -/

theorem dvd_cancel_five {a b n : Nat} : 5 ^ a ∣ n * 2 ^ b ↔ 5 ^ a ∣ n :=
  (Nat.Coprime.pow a b (by decide : Nat.Coprime 5 2)).dvd_mul_right

theorem dvd_cancel_two {a b n : Nat} : 2 ^ a ∣ n * 5 ^ b ↔ 2 ^ a ∣ n :=
  (Nat.Coprime.pow a b (by decide : Nat.Coprime 2 5)).dvd_mul_right

theorem int_dvd {T : FloatT} {e : Int} {n : Nat} : n * num T e % den T e = 0 ↔ den T e ∣ n * num T e :=
  ⟨Nat.dvd_of_mod_eq_zero, Nat.mod_eq_zero_of_dvd⟩

/-- the exponent of 5 is too large -/
theorem not_int_five {T : FloatT} {e : Int} {n : Nat} (h0 : 0 < n) (hn : n < bound T) (hk : kOf T e < 0)
    (hb : bound T < 5 ^ (-kOf T e).toNat) : ¬ n * num T e % den T e = 0 := by
  rw [int_dvd]
  unfold num den
  rw [show (kOf T e).toNat = 0 by omega, Nat.pow_zero, Nat.mul_one]
  intro h
  have h1 : 5 ^ (-kOf T e).toNat ∣ n * 2 ^ (p2Of T e).toNat := dvd_trans (Dvd.intro_left _ rfl) h
  have h2 := Nat.le_of_dvd h0 (dvd_cancel_five.mp h1)
  omega

/-- the exponent of 2 is not negative, that of 5 not positive -/
theorem int_five {T : FloatT} {e : Int} {n : Nat} (hk : kOf T e ≤ 0) (hp : 0 ≤ p2Of T e) :
    n * num T e % den T e = 0 ↔ n % 5 ^ (-kOf T e).toNat = 0 := by
  rw [int_dvd, ← Nat.dvd_iff_mod_eq_zero]
  unfold num den
  rw [show (kOf T e).toNat = 0 by omega, show (-p2Of T e).toNat = 0 by omega, Nat.pow_zero, Nat.pow_zero, Nat.mul_one, Nat.one_mul]
  exact dvd_cancel_five

theorem int_half {T : FloatT} {e : Int} (h : ExpOk T e) {n : Nat} (hodd : n % 2 = 1) (hn : n < bound T) :
    isIntegerHalf T n e (-kOf T e) = intOf T e n := by
  have hc := (check_of h).2.2
  unfold isIntegerHalf intOf
  split_ifs with c1 c2 c3
  · -- the exponent of 2 is negative
    have hp := hc.h1 c1
    symm
    rw [decide_eq_false_iff_not, int_dvd]
    unfold num den
    intro hd
    rw [show (p2Of T e).toNat = 0 by omega, Nat.pow_zero, Nat.one_mul] at hd
    obtain ⟨j, hj⟩ : ∃ j, (-p2Of T e).toNat = j + 1 := ⟨(-p2Of T e).toNat - 1, by omega⟩
    have h1 : 2 ^ (-p2Of T e).toNat ∣ n * 5 ^ (kOf T e).toNat := dvd_trans (Dvd.intro _ rfl) hd
    have h2 := dvd_cancel_two.mp h1
    have h3 : 2 ∣ n := dvd_trans ⟨2 ^ j, by rw [hj, Nat.pow_succ, Nat.mul_comm]⟩ h2
    omega
  · have hp := hc.h2 (by omega) c2
    symm
    rw [decide_eq_true_eq]
    unfold den
    rw [show (-p2Of T e).toNat = 0 by omega, show (-kOf T e).toNat = 0 by omega, Nat.pow_zero, Nat.pow_zero, Nat.mul_one, Nat.mod_one]
  · have hp := hc.h3 c3
    symm
    rw [decide_eq_false_iff_not]
    exact not_int_five (by omega) hn hp.1 hp.2.1
  · have hp := hc.h4 (by omega) (by omega)
    rw [by5_exact (lt_trans hn (bound_lt T)) hp.2.2]
    apply decide_eq_decide.mpr
    exact (int_five hp.1 hp.2.1).symm

theorem int_fc {T : FloatT} {e : Int} (h : ExpOk T e) {n : Nat} (h0 : 0 < n) (hev : n % 2 = 0) (hn : n < bound T) :
    isIntegerFc T n e (-kOf T e) = intOf T e n := by
  have hc := (check_of h).2.2
  unfold isIntegerFc intOf
  split_ifs with c1 c2 c3
  · have hp := hc.h3 c1
    symm
    rw [decide_eq_false_iff_not]
    exact not_int_five h0 hn hp.1 hp.2.1
  · have hp := hc.h4 c2 (by omega)
    rw [by5_exact (lt_trans hn (bound_lt T)) hp.2.2]
    apply decide_eq_decide.mpr
    exact (int_five hp.1 hp.2.1).symm
  · have hp := hc.f1 c3 (by omega)
    symm
    rw [decide_eq_true_eq, int_dvd]
    unfold den num
    rw [show (-kOf T e).toNat = 0 by omega, Nat.pow_zero, Nat.mul_one]
    have h1 : (-p2Of T e).toNat ≤ 1 := by omega
    have h2 : 2 ^ (-p2Of T e).toNat ∣ 2 := by
      calc 2 ^ (-p2Of T e).toNat ∣ 2 ^ 1 := Nat.pow_dvd_pow _ h1
        _ = 2 := by norm_num
    exact Dvd.dvd.mul_right (dvd_trans h2 (Nat.dvd_of_mod_eq_zero hev)) _
  · have hp := hc.f2 (by omega)
    have he : -kOf T e - e + 1 = ((-p2Of T e).toNat : Int) := by
      have : p2Of T e = e - 1 + kOf T e := rfl
      omega
    rw [he, by2_exact h0 (lt_trans hn (bound_lt T))]
    apply decide_eq_decide.mpr
    rw [int_dvd, ← Nat.dvd_iff_mod_eq_zero]
    unfold den num
    rw [show (-kOf T e).toNat = 0 by omega, show (p2Of T e).toNat = 0 by omega, Nat.pow_zero, Nat.pow_zero, Nat.mul_one,
      Nat.one_mul]
    exact dvd_cancel_two.symm

/-! ## The whole function -/

theorem ten_kappa (T : FloatT) : 10 ^ kappa T = 10 ∨ 10 ^ kappa T = 100 := by cases T <;> decide

theorem delta_bounds {T : FloatT} {e : Int} (h : ExpOk T e) :
    10 ^ kappa T ≤ floorOf T e 2 ∧ floorOf T e 2 < 10 ^ kappa T * 10 := by
  have hr := (check_of h).2.1
  unfold floorOf
  rw [Nat.le_div_iff_mul_le (den_pos T e), Nat.div_lt_iff_lt_mul (den_pos T e)]
  exact ⟨hr.d1, hr.d2⟩

theorem floorOf_mono {T : FloatT} {e : Int} {m n : Nat} (h : m ≤ n) : floorOf T e m ≤ floorOf T e n :=
  Nat.div_le_div_right (Nat.mul_le_mul_right _ h)

theorem floorOf_lt {T : FloatT} {e : Int} (h : ExpOk T e) {n : Nat} (hn : n ≤ bound T) :
    2 * floorOf T e n < bound T * (10 ^ kappa T * 10) := by
  have hr := (check_of h).2.1
  have h1 : floorOf T e n * den T e ≤ n * num T e := Nat.div_mul_le_self _ _
  have h2 : 2 * (n * num T e) ≤ bound T * (2 * num T e) := by
    calc 2 * (n * num T e) = n * (2 * num T e) := by ring
      _ ≤ bound T * (2 * num T e) := Nat.mul_le_mul_right _ hn
  have h3 : bound T * (2 * num T e) < bound T * (10 ^ (kappa T + 1) * den T e) :=
    Nat.mul_lt_mul_of_pos_left hr.d2 (by have := two_le_bound T; omega)
  have h4 : 2 * floorOf T e n * den T e < bound T * (10 ^ kappa T * 10) * den T e := by
    calc 2 * floorOf T e n * den T e = 2 * (floorOf T e n * den T e) := by ring
      _ ≤ 2 * (n * num T e) := Nat.mul_le_mul_left _ h1
      _ ≤ _ := h2
      _ < _ := h3
      _ = bound T * (10 ^ kappa T * 10) * den T e := by rw [Nat.pow_succ]; ring
  exact lt_of_mul_lt_mul_right h4 (Nat.zero_le _)

/-- no overflow of the significand -/
theorem significand_bound {T : FloatT} {z : Nat} (h : 2 * z < bound T * (10 ^ kappa T * 10)) :
    z < 2 ^ T.bits ∧ z < 10 ^ 19 ∧ z / (10 ^ kappa T * 10) * 10 + 10 < 2 ^ T.bits ∧
      z / (10 ^ kappa T * 10) < maxSignificand T ∧ z / (10 ^ kappa T * 10) * 10 + 10 < 10 ^ 17 := by
  cases T <;> simp only [bound, kappa, FloatT.mSize, FloatT.bits, maxSignificand] at * <;> omega

theorem small_arith {A δ r : Nat} (hA : A = 10 ∨ A = 100) (d1 : A ≤ δ) (d2 : δ < A * 10) (hr : r ≤ A * 10) (hd : δ ≤ r) :
    u32 (sub32 r (δ / 2) + A / 2) = r - δ / 2 + A / 2 ∧ r - δ / 2 + A / 2 ≤ A * 10 ∧ (r - δ / 2 + A / 2) / A ≤ 10 ∧
      1 ≤ (r - δ / 2 + A / 2) / A := by
  unfold u32 sub32
  rcases hA with rfl | rfl <;> omega

theorem smallDivisor_eq {T : FloatT} {e : Int} (h : ExpOk T e) {n : Nat} (h0 : 0 < n) (hev : n % 2 = 0) (hn : n < bound T)
    {s r : Nat} (hr : r ≤ 10 ^ kappa T * 10) (hd : floorOf T e 2 ≤ r) (hs : s * 10 + 10 < 2 ^ T.bits) :
    smallDivisor T n e (-kOf T e) (getCache T (kOf T e)) (betaOf T e).toNat (floorOf T e 2) s r =
      (idealSmall (10 ^ kappa T) (floorOf T e 2) (floorOf T e n) (intOf T e n) s r, -kOf T e + kappa T) := by
  obtain ⟨d1, d2⟩ := delta_bounds h
  have hA := ten_kappa T
  unfold smallDivisor idealSmall
  dsimp only
  generalize floorOf T e 2 = δ at *
  obtain ⟨hD, hDle, hq1, hq2⟩ := small_arith hA d1 d2 hr hd
  rw [← Nat.pow_succ] at hDle
  rw [hD]
  rw [checkDiv_table T _ hDle, parity_ok h n hn, int_fc h h0 hev hn]
  dsimp only
  have hpar : (r - δ / 2 + 10 ^ kappa T / 2 ^^^ 10 ^ kappa T / 2) % 2 = (r - δ / 2) % 2 := by
    have : ∀ a b : Nat, (a ^^^ b) % 2 = (a + b) % 2 := by
      intro a b
      have := Nat.xor_mod_two_eq_one (a := a) (b := b)
      omega
    rw [this]; omega
  rw [hpar]
  generalize (r - δ / 2 + 10 ^ kappa T / 2) / 10 ^ kappa T = q at *
  have hs' : cu T (cu T (s * 10) + q) = s * 10 + q := by
    unfold cu
    rw [Nat.mod_eq_of_lt (by omega : s * 10 < 2 ^ T.bits), Nat.mod_eq_of_lt (by omega)]
  rw [hs']
  have hsub : subC T (s * 10 + q) 1 = s * 10 + q - 1 := by
    unfold subC
    rw [show s * 10 + q + 2 ^ T.bits - 1 = s * 10 + q - 1 + 2 ^ T.bits by omega, Nat.add_mod_right]
    exact Nat.mod_eq_of_lt (by omega)
  rw [hsub]
  congr 1
  have hne : (decide (floorOf T e n % 2 ≠ 0) ≠ decide ((r - δ / 2) % 2 ≠ 0)) ↔ floorOf T e n % 2 ≠ (r - δ / 2) % 2 := by
    rw [Ne, decide_eq_decide]
    omega
  by_cases hz : (r - δ / 2 + 10 ^ kappa T / 2) % 10 ^ kappa T = 0
  · rw [if_pos (by rw [decide_eq_true_eq]; exact hz), if_pos hz]
    by_cases hp : floorOf T e n % 2 ≠ (r - δ / 2) % 2
    · rw [if_pos (hne.mpr hp), if_pos hp]
    · rw [if_neg (fun c => hp (hne.mp c)), if_neg hp]
  · rw [if_neg (by rw [decide_eq_true_eq]; exact hz), if_neg hz]

/-- compute_nearest_normal is the algorithm without overflow, on exact integer parts -/
theorem nearestNormal_eq {T : FloatT} {e : Int} (h : ExpOk T e) {n : Nat} (h0 : 0 < n) (hev : n % 2 = 0) (hn : n < bound T)
    (closed : Bool) :
    nearestNormal T n e closed =
      let t := ideal (10 ^ kappa T) (floorOf T e (n + 1)) (floorOf T e 2) (floorOf T e (n - 1)) (floorOf T e n) closed
        (intOf T e (n + 1)) (intOf T e (n - 1)) (intOf T e n)
      if t.2 then onTrailingZeros T t.1 (-kOf T e + kappa T + 1) else (t.1, -kOf T e + kappa T) := by
  have hb2 : bound T % 2 = 0 := by cases T <;> decide
  have hn1 : n + 1 < bound T := by omega
  have hmk : floorLog10Pow2 e - (kappa T : Int) = -kOf T e := by unfold kOf; omega
  have hk2 : - -kOf T e = kOf T e := by omega
  have hbeta : e + floorLog2Pow10 (kOf T e) = betaOf T e := rfl
  have hor : n ||| 1 = n + 1 := by
    have := Nat.two_pow_add_eq_or_of_lt (b := 1) (i := 1) (by norm_num) (n / 2)
    rw [show 2 ^ 1 * (n / 2) = n by omega] at this
    exact this.symm
  obtain ⟨d1, d2⟩ := delta_bounds h
  have hzb := floorOf_lt h hn1.le
  obtain ⟨z1, z2, z3, z4, z5⟩ := significand_bound hzb
  have hzδ : floorOf T e 2 ≤ floorOf T e (n + 1) := floorOf_mono (by omega)
  unfold nearestNormal ideal
  dsimp only
  rw [hmk, hk2, hbeta, hor, delta_ok h, mul_ok h (n + 1) hn1, divideByBig_exact z1 z2, int_half h (by omega) hn1]
  have hfl : subC T n 1 = n - 1 := by
    unfold subC
    have := bound_lt T
    rw [show n + 2 ^ T.bits - 1 = n - 1 + 2 ^ T.bits by omega, Nat.add_mod_right]
    exact Nat.mod_eq_of_lt (by omega)
  rw [hfl, int_half h (by omega) (by omega : n - 1 < bound T), parity_ok h (n - 1) (by omega), Nat.pow_succ]
  have hB : 0 < 10 ^ kappa T * 10 := by positivity
  have hr : u32 (subC T (floorOf T e (n + 1)) (cu T (10 ^ kappa T * 10 * (floorOf T e (n + 1) / (10 ^ kappa T * 10))))) =
      floorOf T e (n + 1) % (10 ^ kappa T * 10) := by
    have hle : 10 ^ kappa T * 10 * (floorOf T e (n + 1) / (10 ^ kappa T * 10)) ≤ floorOf T e (n + 1) := Nat.mul_div_le _ _
    have hmod : floorOf T e (n + 1) % (10 ^ kappa T * 10) < 10 ^ kappa T * 10 := Nat.mod_lt _ hB
    have hdm := Nat.div_add_mod (floorOf T e (n + 1)) (10 ^ kappa T * 10)
    have hA := ten_kappa T
    unfold u32 subC cu
    generalize 10 ^ kappa T * 10 * (floorOf T e (n + 1) / (10 ^ kappa T * 10)) = w at *
    generalize floorOf T e (n + 1) % (10 ^ kappa T * 10) = m at *
    have hw : w % 2 ^ T.bits = w := Nat.mod_eq_of_lt (by omega)
    rw [hw, show floorOf T e (n + 1) + 2 ^ T.bits - w = m + 2 ^ T.bits by omega, Nat.add_mod_right]
    have : m < 2 ^ T.bits := by omega
    rw [Nat.mod_eq_of_lt this]
    apply Nat.mod_eq_of_lt
    omega
  rw [hr]
  have hmod : floorOf T e (n + 1) % (10 ^ kappa T * 10) < 10 ^ kappa T * 10 := Nat.mod_lt _ hB
  have hdm := Nat.div_add_mod (floorOf T e (n + 1)) (10 ^ kappa T * 10)
  by_cases c1 : floorOf T e (n + 1) % (10 ^ kappa T * 10) > floorOf T e 2
  · rw [if_pos c1, if_pos c1, smallDivisor_eq h h0 hev hn hmod.le c1.le z3]
    rfl
  · rw [if_neg c1, if_neg c1]
    by_cases c2 : floorOf T e (n + 1) % (10 ^ kappa T * 10) < floorOf T e 2
    · rw [if_pos c2, if_pos c2]
      by_cases c3 : floorOf T e (n + 1) % (10 ^ kappa T * 10) = 0 ∧ closed = false ∧ intOf T e (n + 1) = true
      · have hs1 : 1 ≤ floorOf T e (n + 1) / (10 ^ kappa T * 10) := by
          by_contra hc
          have : floorOf T e (n + 1) / (10 ^ kappa T * 10) = 0 := by omega
          rw [this, c3.1] at hdm
          have : 0 < 10 ^ kappa T := by positivity
          omega
        have hsub : subC T (floorOf T e (n + 1) / (10 ^ kappa T * 10)) 1 = floorOf T e (n + 1) / (10 ^ kappa T * 10) - 1 := by
          unfold subC
          rw [show ∀ a b : Nat, 1 ≤ a → a + b - 1 = a - 1 + b by intros; omega]
          · rw [Nat.add_mod_right]
            exact Nat.mod_eq_of_lt (by omega)
          · exact hs1
        rw [if_pos c3, if_pos c3, hsub, smallDivisor_eq h h0 hev hn (Nat.le_refl _) d2.le (by omega)]
        rfl
      · rw [if_neg c3, if_neg c3]
        rfl
    · rw [if_neg c2, if_neg c2]
      have hiff : ((closed = false ∨ intOf T e (n - 1) = false) ∧ decide (floorOf T e (n - 1) % 2 ≠ 0) = false) ↔
          ((closed = false ∨ intOf T e (n - 1) = false) ∧ floorOf T e (n - 1) % 2 = 0) := by
        rw [decide_eq_false_iff_not, not_not]
      by_cases c4 : (closed = false ∨ intOf T e (n - 1) = false) ∧ floorOf T e (n - 1) % 2 = 0
      · rw [if_pos (hiff.mpr c4), if_pos c4, smallDivisor_eq h h0 hev hn hmod.le (by omega) z3]
        rfl
      · rw [if_neg (fun c => c4 (hiff.mp c)), if_neg c4]
        rfl

end Strf.Dragonbox

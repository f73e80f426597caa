import Verif.Dragonbox.Normal
import Verif.Dragonbox.Shortest
/-
compute_nearest_normal finds the shortest decimal number.
-/
namespace Strf.Dragonbox
open Spec Strf.Float

theorem bias_eq (T : FloatT) : Spec.bias T.eSize = T.bias := by cases T <;> decide

theorem lastExp_zero (T : FloatT) : lastExp T.mSize T.eSize 0 = minExp T := by
  unfold lastExp minExp; rw [bias_eq, if_pos rfl]

theorem lastExp_pos (T : FloatT) {eb : Nat} (h : eb ≠ 0) : lastExp T.mSize T.eSize eb = (eb : Int) - T.bias - T.mSize := by
  unfold lastExp; rw [bias_eq, if_neg h]

theorem two_le_eSize (T : FloatT) : 2 ≤ T.eSize := by cases T <;> decide
theorem one_le_mSize (T : FloatT) : 1 ≤ T.mSize := by cases T <;> decide

theorem expOk_of {T : FloatT} {eb m : Nat} (hf : IsFinite T.mSize T.eSize eb m) : ExpOk T (lastExp T.mSize T.eSize eb) := by
  have h1 := hf.1
  by_cases h0 : eb = 0
  · subst h0
    rw [lastExp_zero]
    refine ⟨le_refl _, ?_⟩
    have : 0 < expCount T := by cases T <;> decide
    omega
  · rw [lastExp_pos T h0]
    unfold ExpOk minExp expCount
    have : 4 ≤ 2 ^ T.eSize := by cases T <;> decide
    constructor <;> omega

theorem num_den (T : FloatT) (e : Int) : (num T e : ℚ) / den T e = 2 ^ (e - 1) * 10 ^ kOf T e := by
  have hz : ∀ (b : ℚ) (hb : b ≠ 0) (i : Int), b ^ i.toNat / b ^ (-i).toNat = b ^ i := by
    intro b hb i
    rw [← zpow_natCast, ← zpow_natCast, ← zpow_sub₀ hb]
    congr 1; omega
  unfold num den
  push_cast
  rw [mul_div_mul_comm, hz 2 (by norm_num), hz 5 (by norm_num)]
  unfold p2Of
  rw [zpow_add₀ (by norm_num), show (10 : ℚ) = 2 * 5 by norm_num, mul_zpow]
  ring

theorem floor_q (a b : Nat) (hb : 0 < b) :
    ((a / b : Nat) : ℚ) ≤ (a : ℚ) / b ∧ (a : ℚ) / b < ((a / b : Nat) : ℚ) + 1 ∧
      (decide (a % b = 0) = true ↔ (a : ℚ) / b = ((a / b : Nat) : ℚ)) := by
  have hbq : (0 : ℚ) < b := by exact_mod_cast hb
  have hd := Nat.div_add_mod a b
  have hm := Nat.mod_lt a hb
  have hdq : (b : ℚ) * ((a / b : Nat) : ℚ) + ((a % b : Nat) : ℚ) = a := by exact_mod_cast hd
  have hmq : ((a % b : Nat) : ℚ) < b := by exact_mod_cast hm
  have hm0 : (0 : ℚ) ≤ ((a % b : Nat) : ℚ) := Nat.cast_nonneg _
  generalize a / b = q at *
  refine ⟨?_, ?_, ?_⟩
  · rw [le_div_iff₀ hbq]; linarith
  · rw [div_lt_iff₀ hbq]; linarith
  · rw [decide_eq_true_eq, div_eq_iff hbq.ne']
    constructor
    · intro h; rw [h] at hdq; push_cast at hdq; linarith
    · intro h
      have : ((a % b : Nat) : ℚ) = 0 := by linarith
      exact_mod_cast this

/-- what the integer parts are -/
theorem floorOf_q (T : FloatT) (e : Int) (n : Nat) {x : ℚ} (hx : x = 2 ^ (e - 1) * 10 ^ kOf T e) :
    (floorOf T e n : ℚ) ≤ n * x ∧ n * x < floorOf T e n + 1 ∧ (intOf T e n = true ↔ n * x = floorOf T e n) := by
  have := floor_q (n * num T e) (den T e) (den_pos T e)
  have hn : ((n * num T e : Nat) : ℚ) / den T e = n * x := by
    rw [hx, ← num_den]; push_cast; ring
  rw [hn] at this
  exact this

theorem inputs_ok {T : FloatT} {e : Int} (h : ExpOk T e) {n : Nat} (h2 : 2 ≤ n) (hev : n % 2 = 0) {x : ℚ}
    (hx : x = 2 ^ (e - 1) * 10 ^ kOf T e) :
    Inputs (10 ^ kappa T) (n * x) x (floorOf T e (n + 1)) (floorOf T e 2) (floorOf T e (n - 1)) (floorOf T e n)
      (intOf T e (n + 1)) (intOf T e (n - 1)) (intOf T e n) := by
  have hx0 : 0 < x := by rw [hx]; positivity
  have hr := (check_of h).2.1
  obtain ⟨a1, a2, a3⟩ := floorOf_q T e (n + 1) hx
  obtain ⟨b1, b2, b3⟩ := floorOf_q T e (n - 1) hx
  obtain ⟨c1, c2, c3⟩ := floorOf_q T e n hx
  obtain ⟨d1, d2, d3⟩ := floorOf_q T e 2 hx
  have ea : ((n + 1 : Nat) : ℚ) * x = n * x + x := by push_cast; ring
  have eb : ((n - 1 : Nat) : ℚ) * x = n * x - x := by push_cast [show 1 ≤ n by omega]; ring
  rw [ea] at a1 a2 a3
  rw [eb] at b1 b2 b3
  have hdq : (0 : ℚ) < den T e := by exact_mod_cast den_pos T e
  have hxn : x * den T e = num T e := by rw [hx, ← num_den]; field_simp
  have hn2 : (2 : ℚ) ≤ n := by exact_mod_cast h2
  refine ⟨a1, a2, by exact_mod_cast d1, by exact_mod_cast d2, b1, b2, c1, c2, a3, b3, c3, by nlinarith, by positivity,
    by cases T <;> decide, ?_, ?_, ?_⟩
  · have := hr.d1
    have hq : (((10 ^ kappa T : Nat) : ℚ)) * den T e ≤ 2 * num T e := by exact_mod_cast this
    rw [← hxn] at hq
    have : ((10 ^ kappa T : Nat) : ℚ) * den T e ≤ (2 * x) * den T e := by linarith
    exact le_of_mul_le_mul_right this hdq
  · have := hr.d2
    rw [Nat.pow_succ] at this
    have hq : (2 : ℚ) * num T e < (((10 ^ kappa T : Nat) : ℚ) * 10) * den T e := by exact_mod_cast this
    rw [← hxn] at hq
    have : (2 * x) * den T e < (((10 ^ kappa T : Nat) : ℚ) * 10) * den T e := by linarith
    exact lt_of_mul_lt_mul_right this hdq.le
  · refine ⟨n / 2, ?_⟩
    have : (n : ℚ) = ((n / 2 : Nat) : ℚ) * 2 := by exact_mod_cast (show n = n / 2 * 2 by omega)
    rw [← mul_assoc, ← this]

/-- scaling the interval -/
theorem near_scaled {p w eb m : Nat} (hs : ¬ Shorter eb m) {s : ℚ} (h0 : 0 < s) (q : ℚ) :
    Near p w eb m q ↔ InI (decide (m % 2 = 0)) (value p w eb m * s) (half p w eb * s) (q * s) := by
  unfold Near InI
  have hl : left p w eb m = half p w eb := by unfold left; rw [if_neg hs]
  rw [hl, ← sub_mul, ← add_mul]
  simp only [decide_eq_true_eq]
  split_ifs
  · rw [mul_le_mul_iff_left₀ h0, mul_le_mul_iff_left₀ h0]
  · rw [mul_lt_mul_iff_left₀ h0, mul_lt_mul_iff_left₀ h0]

theorem decimal_scaled (c j : Nat) (k : Int) : decimal c (-k + j) * 10 ^ k = c * (10 ^ j : Nat) := by
  unfold decimal
  rw [zpow_add₀ (by norm_num), zpow_neg]
  push_cast
  have : (10 : ℚ) ^ k ≠ 0 := by positivity
  field_simp
  rw [zpow_natCast]

/-- the smallest numbers, whose shortest decimal number could be a power of ten -/
theorem small_check (T : FloatT) : ∀ n < 20, (n - 1) * num T (minExp T) ≤ 10 ^ (kappa T + 1) * den T (minExp T) →
    10 ^ (kappa T + 1) * den T (minExp T) ≤ (n + 1) * num T (minExp T) →
    19 * (10 ^ (kappa T + 1) * den T (minExp T)) ≤ 20 * (n * num T (minExp T)) := by
  cases T <;> decide +kernel

/-- what the conversion guarantees: the specification, and the ranges -/
structure Good (T : FloatT) (eb m : Nat) (r : Nat × Int) : Prop where
  spec : IsShortest T.mSize T.eSize eb m r.1 r.2
  lt : r.1 < 10 ^ 17
  e1 : -400 ≤ r.2
  e2 : r.2 ≤ 400

theorem k_range {T : FloatT} {e : Int} (h : ExpOk T e) : -292 ≤ kOf T e ∧ kOf T e ≤ 326 := by
  have hr := (check_of h).2.1
  have := hr.k1
  have := hr.k2
  cases T <;> simp only [minK, maxK] at * <;> omega

theorem kappa_le (T : FloatT) : kappa T ≤ 2 := by cases T <;> decide

theorem normal_good {T : FloatT} {eb m : Nat} (hf : IsFinite T.mSize T.eSize eb m) (hm : m ≠ 0) :
    Good T eb m (nearestNormal T (2 * sig T.mSize eb m) (lastExp T.mSize T.eSize eb) (decide (m % 2 = 0))) := by
  have hs : ¬ Shorter eb m := by unfold Shorter; omega
  have he := expOk_of hf
  obtain ⟨e, hee⟩ : ∃ e, e = lastExp T.mSize T.eSize eb := ⟨_, rfl⟩
  have hsig1 : 1 ≤ sig T.mSize eb m := by
    have : 0 < 2 ^ T.mSize := by positivity
    unfold sig; split_ifs <;> omega
  have hh : half T.mSize T.eSize eb = 2 ^ (e - 1) := by unfold half; rw [hee]
  have hh0 := half_pos T.mSize T.eSize eb
  have hv : value T.mSize T.eSize eb m = ((2 * sig T.mSize eb m : Nat) : ℚ) * half T.mSize T.eSize eb := by
    rw [value_eq]; push_cast; ring
  have hsigb : 2 * sig T.mSize eb m < bound T := by
    have := hf.2
    unfold sig bound
    rw [show T.mSize + 2 = T.mSize + 1 + 1 from rfl, Nat.pow_succ, Nat.pow_succ]
    split_ifs <;> omega
  have hsmallexp : 2 * sig T.mSize eb m < 20 → e = minExp T := by
    intro h
    have h0 : eb = 0 := by
      by_contra hc
      unfold sig at h
      rw [if_neg hc] at h
      have : 1000 ≤ 2 ^ T.mSize := by cases T <;> decide
      omega
    rw [hee, h0, lastExp_zero]
  rw [← hee] at he ⊢
  obtain ⟨n, hn⟩ : ∃ n, n = 2 * sig T.mSize eb m := ⟨_, rfl⟩
  rw [← hn] at hv hsigb hsmallexp ⊢
  have hn2 : 2 ≤ n := by omega
  have hnev : n % 2 = 0 := by omega
  obtain ⟨x, hx⟩ : ∃ x : ℚ, x = 2 ^ (e - 1) * 10 ^ kOf T e := ⟨_, rfl⟩
  have hs10 : (0 : ℚ) < 10 ^ kOf T e := by positivity
  have hxh : half T.mSize T.eSize eb * 10 ^ kOf T e = x := by rw [hh, hx]
  have hxv : value T.mSize T.eSize eb m * 10 ^ kOf T e = n * x := by rw [hv, mul_assoc, hxh]
  have hscale := near_scaled (p := T.mSize) (w := T.eSize) hs hs10
  rw [hxh, hxv] at hscale
  have H := inputs_ok he hn2 hnev hx
  have spec := ideal_spec (closed := decide (m % 2 = 0)) H
  have hn1 : n + 1 < bound T := by
    have : bound T % 2 = 0 := by cases T <;> decide
    omega
  obtain ⟨z1, z2, z3, z4, z5⟩ := significand_bound (floorOf_lt he hn1.le)
  have hk := k_range he
  have hkap := kappa_le T
  have hv0 : 0 < value T.mSize T.eSize eb m := by
    rw [hv]
    have : (0 : ℚ) < n := by exact_mod_cast (show 0 < n by omega)
    positivity
  have hvh : 2 * half T.mSize T.eSize eb ≤ value T.mSize T.eSize eb m := by
    rw [hv]
    have : (2 : ℚ) ≤ n := by exact_mod_cast hn2
    nlinarith
  have fin := fun d E => @isShortest_of T.mSize T.eSize eb m (one_le_mSize T) (two_le_eSize T) hf hv0 d E
  rw [nearestNormal_eq he (by omega) hnev hsigb]
  dsimp only at spec ⊢
  generalize ideal (10 ^ kappa T) (floorOf T e (n + 1)) (floorOf T e 2) (floorOf T e (n - 1)) (floorOf T e n)
    (decide (m % 2 = 0)) (intOf T e (n + 1)) (intOf T e (n - 1)) (intOf T e n) = t at *
  have sc : ∀ c j : Nat, Near T.mSize T.eSize eb m (decimal c (-kOf T e + j)) ↔
      InI (decide (m % 2 = 0)) (n * x) x (c * ((10 ^ j : Nat) : ℚ)) := by
    intro c j
    rw [hscale, decimal_scaled]
  have hB : ((10 ^ (kappa T + 1) : Nat) : ℚ) = ((10 ^ kappa T : Nat) : ℚ) * 10 := by push_cast; ring
  rcases spec with ⟨t2, s1, s2, s3⟩ | ⟨t2, s1, s2, s3, s4, s5⟩
  · rw [t2, if_pos rfl]
    -- the only multiple
    have uniq : ∀ a b : Nat, Near T.mSize T.eSize eb m (decimal a (-kOf T e + (kappa T + 1 : Nat))) →
        Near T.mSize T.eSize eb m (decimal b (-kOf T e + (kappa T + 1 : Nat))) → a ≤ b := by
      intro a b ha hb
      rw [sc, hB] at ha hb
      by_contra hc
      have h1 : ((b + 1 : Nat) : ℚ) ≤ a := by exact_mod_cast (show b + 1 ≤ a by omega)
      push_cast at h1
      have w1 := ha.weak.2
      have w2 := hb.weak.1
      have hA0 : (0 : ℚ) < ((10 ^ kappa T : Nat) : ℚ) * 10 := by positivity
      have h2 := H.a2
      have h3 := mul_le_mul_of_nonneg_right h1 hA0.le
      linarith
    have hin : Near T.mSize T.eSize eb m (decimal t.1 (-kOf T e + (kappa T + 1 : Nat))) := by
      rw [sc, hB]; exact s3
    obtain ⟨r1, r2⟩ := removeZeros_exact (T := T) (n := t.1) (by omega) (by omega)
    unfold onTrailingZeros
    dsimp only
    generalize removeZeros T t.1 = r at *
    have hE : -kOf T e + kappa T + 1 + (r.2 : Int) = -kOf T e + (kappa T + 1 : Nat) + (r.2 : Int) := by push_cast; ring
    rw [hE]
    have hdec : decimal r.1 (-kOf T e + (kappa T + 1 : Nat) + (r.2 : Int)) = decimal t.1 (-kOf T e + (kappa T + 1 : Nat)) := by
      rw [decimal_shift, r1]
    have hp10 : 1 ≤ 10 ^ r.2 := Nat.one_le_pow _ _ (by norm_num)
    have hr10 : 1 ≤ r.1 := by omega
    have hle : r.1 ≤ t.1 := by rw [← r1]; exact Nat.le_mul_of_pos_right _ hp10
    have hlt17 : t.1 < 10 ^ 17 := by omega
    have hr217 : r.2 < 17 := by
      by_contra hc
      have h1 : 10 ^ 17 ≤ 10 ^ r.2 := Nat.pow_le_pow_right (by norm_num) (by omega)
      have h2 : 10 ^ r.2 ≤ t.1 := by rw [← r1]; exact Nat.le_mul_of_pos_left _ hr10
      omega
    refine ⟨fin _ _ (by rw [hdec]; exact hin) ?_ ?_ ?_, by dsimp only; omega, by dsimp only; omega, by dsimp only; omega⟩
    · intro c hc
      rw [show -kOf T e + (kappa T + 1 : Nat) + (r.2 : Int) + 1 = -kOf T e + (kappa T + 1 : Nat) + ((r.2 + 1 : Nat) : Int) by
        push_cast; ring, decimal_shift] at hc
      have := Nat.le_antisymm (uniq _ _ hc hin) (uniq _ _ hin hc)
      rw [← r1, Nat.pow_succ, Nat.mul_comm (10 ^ r.2), ← Nat.mul_assoc] at this
      have := Nat.eq_of_mul_eq_mul_right hp10 this
      omega
    · intro c hc
      rw [decimal_shift] at hc
      have := Nat.le_antisymm (uniq _ _ hc hin) (uniq _ _ hin hc)
      rw [← r1] at this
      rw [Nat.eq_of_mul_eq_mul_right hp10 this]
    · by_cases hbig : 20 ≤ n
      · right; omega
      left
      have hmin := hsmallexp (by omega)
      have hhi := near_hi hin
      rw [← hdec] at hhi
      have hpos : 0 < decimal 1 (-kOf T e + (kappa T + 1 : Nat) + (r.2 : Int)) := by unfold decimal; positivity
      by_cases hd2 : 2 ≤ r.1
      · have : 2 * decimal 1 (-kOf T e + (kappa T + 1 : Nat) + (r.2 : Int)) ≤
            decimal r.1 (-kOf T e + (kappa T + 1 : Nat) + (r.2 : Int)) := by
          unfold decimal
          have h1 : (2 : ℚ) ≤ r.1 := by exact_mod_cast hd2
          have h2 : (0 : ℚ) < 10 ^ (-kOf T e + (kappa T + 1 : Nat) + (r.2 : Int)) := by positivity
          rw [Nat.cast_one, one_mul]
          exact mul_le_mul_of_nonneg_right h1 h2.le
        linarith
      · have hd1 : r.1 = 1 := by omega
        rw [hd1] at hdec hhi r1
        -- no more zeros
        have hr0 : r.2 = 0 := by
          by_contra hc
          have h1 : 10 ≤ t.1 := by
            rw [← r1, Nat.one_mul]
            calc 10 = 10 ^ 1 := rfl
              _ ≤ 10 ^ r.2 := Nat.pow_le_pow_right (by norm_num) (by omega)
          have h2 := s3.weak.2
          have h3 : (10 : ℚ) ≤ t.1 := by exact_mod_cast h1
          have h4 : (n : ℚ) ≤ 18 := by exact_mod_cast (show n ≤ 18 by omega)
          have hx0 : 0 < x := by rw [hx]; positivity
          have h5 := H.a2
          have h6 := mul_le_mul_of_nonneg_right h3 (show (0 : ℚ) ≤ ((10 ^ kappa T : Nat) : ℚ) * 10 by positivity)
          have h7 := mul_le_mul_of_nonneg_right h4 hx0.le
          linarith
        rw [hr0] at r1
        have ht1 : t.1 = 1 := by simpa using r1.symm
        have hden : (0 : ℚ) < den T e := by exact_mod_cast den_pos T e
        have hxn : x * den T e = num T e := by rw [hx, ← num_den]; field_simp
        have w := s3.weak
        rw [ht1] at w
        have c1 : (n - 1) * num T e ≤ 10 ^ (kappa T + 1) * den T e := by
          have : (((n - 1 : Nat) : ℚ)) * num T e ≤ ((10 ^ (kappa T + 1) : Nat) : ℚ) * den T e := by
            rw [← hxn, hB]
            push_cast [show 1 ≤ n by omega]
            have := mul_le_mul_of_nonneg_right w.1 hden.le
            push_cast at this
            linarith
          exact_mod_cast this
        have c2 : 10 ^ (kappa T + 1) * den T e ≤ (n + 1) * num T e := by
          have : ((10 ^ (kappa T + 1) : Nat) : ℚ) * den T e ≤ (((n + 1 : Nat) : ℚ)) * num T e := by
            rw [← hxn, hB]
            push_cast
            have := mul_le_mul_of_nonneg_right w.2 hden.le
            push_cast at this
            linarith
          exact_mod_cast this
        rw [hmin] at c1 c2
        have c3 := small_check T n (by omega) c1 c2
        rw [← hmin] at c3
        have c4 : (19 : ℚ) * (((10 ^ (kappa T + 1) : Nat) : ℚ) * den T e) ≤ 20 * (n * num T e) := by exact_mod_cast c3
        rw [← hxn] at c4
        have c5 : (19 : ℚ) * ((10 ^ (kappa T + 1) : Nat) : ℚ) ≤ 20 * (n * x) := by
          have : (19 * ((10 ^ (kappa T + 1) : Nat) : ℚ)) * den T e ≤ (20 * (n * x)) * den T e := by linarith
          exact le_of_mul_le_mul_right this hden
        have c6 := decimal_scaled 1 (kappa T + 1) (kOf T e)
        rw [hr0]
        simp only [Nat.cast_zero, add_zero]
        have c7 : (19 * decimal 1 (-kOf T e + (kappa T + 1 : Nat))) * 10 ^ kOf T e ≤
            (20 * value T.mSize T.eSize eb m) * 10 ^ kOf T e := by
          rw [mul_assoc, c6, mul_assoc, hxv]; push_cast at c5 ⊢; linarith
        exact le_of_mul_le_mul_right c7 hs10
  · rw [t2, if_neg (by decide)]
    refine ⟨fin _ _ ?_ ?_ ?_ ?_, by dsimp only; omega, by dsimp only; omega, by dsimp only; omega⟩
    · rw [sc]; exact s4
    · intro c hc
      rw [show -kOf T e + (kappa T : Int) + 1 = -kOf T e + ((kappa T + 1 : Nat) : Int) by push_cast; ring, sc, hB] at hc
      exact s3 c hc
    · intro c _
      have := s5 c
      have ab : ∀ a : Nat, |decimal a (-kOf T e + (kappa T : Int)) - value T.mSize T.eSize eb m| * 10 ^ kOf T e =
          |(a : ℚ) * ((10 ^ kappa T : Nat) : ℚ) - n * x| := by
        intro a
        rw [← decimal_scaled a (kappa T) (kOf T e), ← hxv, ← sub_mul, abs_mul, abs_of_pos hs10]
      rw [← ab, ← ab] at this
      exact le_of_mul_le_mul_right this hs10
    · left
      have h1 : decimal 1 (-kOf T e + (kappa T : Int)) * 10 ^ kOf T e ≤ (2 * half T.mSize T.eSize eb) * 10 ^ kOf T e := by
        rw [decimal_scaled, mul_assoc, hxh]
        have := H.a1
        push_cast at this ⊢
        linarith
      have h2 := le_of_mul_le_mul_right h1 hs10
      linarith

end Strf.Dragonbox

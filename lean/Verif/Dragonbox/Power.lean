import Verif.Dragonbox.Regular
import Verif.Dragonbox.ShorterCheck
/-
compute_nearest_shorter finds the shortest decimal number.
-/
namespace Strf.Dragonbox
open Spec Strf.Float

theorem scale_eq (E f : Int) : (scaleNum E f : ℚ) * 2 ^ f = scaleDen E f * 10 ^ E := by
  have hz : ∀ (b : ℚ) (_ : b ≠ 0) (i : Int), b ^ i.toNat = b ^ i * b ^ (-i).toNat := by
    intro b hb i
    rw [← zpow_natCast, ← zpow_natCast, ← zpow_add₀ hb]
    congr 1; omega
  unfold scaleNum scaleDen
  push_cast
  rw [hz 10 (by norm_num) E, hz 2 (by norm_num) f]
  ring

/-- comparing decimal and binary numbers -/
theorem scale_le {E f : Int} {a b : Nat} : a * scaleNum E f ≤ b * scaleDen E f ↔ decimal a E ≤ (b : ℚ) * 2 ^ f := by
  have h := scale_eq E f
  have hQ : (0 : ℚ) < scaleDen E f := by unfold scaleDen; positivity
  have h2 : (0 : ℚ) < 2 ^ f := by positivity
  have e1 : (a : ℚ) * scaleNum E f * 2 ^ f = decimal a E * scaleDen E f := by
    unfold decimal; rw [mul_assoc, h]; ring
  have e2 : (b : ℚ) * scaleDen E f * 2 ^ f = (b : ℚ) * 2 ^ f * scaleDen E f := by ring
  rw [← Nat.cast_le (α := ℚ)]
  push_cast
  rw [← mul_le_mul_iff_left₀ h2, e1, e2, mul_le_mul_iff_left₀ hQ]

theorem scale_ge {E f : Int} {a b : Nat} : b * scaleDen E f ≤ a * scaleNum E f ↔ (b : ℚ) * 2 ^ f ≤ decimal a E := by
  have h := scale_eq E f
  have hQ : (0 : ℚ) < scaleDen E f := by unfold scaleDen; positivity
  have h2 : (0 : ℚ) < 2 ^ f := by positivity
  have e1 : (a : ℚ) * scaleNum E f * 2 ^ f = decimal a E * scaleDen E f := by
    unfold decimal; rw [mul_assoc, h]; ring
  have e2 : (b : ℚ) * scaleDen E f * 2 ^ f = (b : ℚ) * 2 ^ f * scaleDen E f := by ring
  rw [← Nat.cast_le (α := ℚ)]
  push_cast
  rw [← mul_le_mul_iff_left₀ h2, e1, e2, mul_le_mul_iff_left₀ hQ]

theorem scale_lt {E f : Int} {a b : Nat} : a * scaleNum E f < b * scaleDen E f ↔ decimal a E < (b : ℚ) * 2 ^ f := by
  rw [← Nat.not_le, scale_ge, not_le]

theorem scale_gt {E f : Int} {a b : Nat} : b * scaleDen E f < a * scaleNum E f ↔ (b : ℚ) * 2 ^ f < decimal a E := by
  rw [← Nat.not_le, scale_le, not_le]

theorem shorterOk_spec {d : Nat} {E f : Int} {L V R : Nat} (h : shorterOk d E f L V R = true) :
    ((L : ℚ) * 2 ^ f ≤ decimal d E ∧ decimal d E ≤ R * 2 ^ f) ∧
    (∀ c : Nat, (L : ℚ) * 2 ^ f ≤ decimal c (E + 1) → ¬ decimal c (E + 1) ≤ R * 2 ^ f) ∧
    (∀ c : Nat, (L : ℚ) * 2 ^ f ≤ decimal c E → |decimal d E - V * 2 ^ f| ≤ |decimal c E - V * 2 ^ f|) ∧
    d < 10 ^ 17 ∧ -400 ≤ E ∧ E ≤ 400 := by
  unfold shorterOk at h
  rw [force_eq, force_eq] at h
  simp only [Bool.and_eq_true, Bool.or_eq_true, Nat.ble_eq, Nat.blt_eq, decide_eq_true_eq] at h
  obtain ⟨⟨⟨⟨⟨⟨⟨h1, h2⟩, h3⟩, h4⟩, h5⟩, h6⟩, h7⟩, h8⟩ := h
  have hup : ∀ c : Nat, decimal c (E + 1) = decimal (c * 10) E := by
    intro c
    have := decimal_shift c E 1
    simpa using this
  refine ⟨⟨scale_ge.mp h1, scale_le.mp h2⟩, ?_, ?_, h6, h7, h8⟩
  · intro c hc hc2
    rw [hup] at hc hc2
    have g1 := scale_lt.mp h3
    have g2 := scale_gt.mp h4
    have i1 : d / 10 * 10 < c * 10 := decimal_lt.mp (lt_of_lt_of_le g1 hc)
    have i2 : c * 10 < (d / 10 + 1) * 10 := decimal_lt.mp (lt_of_le_of_lt hc2 g2)
    omega
  · intro c hc
    have hsc := scale_eq E f
    have hQ : (0 : ℚ) < scaleDen E f := by unfold scaleDen; positivity
    have h2f : (0 : ℚ) < 2 ^ f := by positivity
    have hten : (0 : ℚ) < 10 ^ E := by positivity
    rcases h5 with ⟨h5, h9⟩ | ⟨h5, h9⟩
    · have q1 : (2 * d : Nat) * scaleNum E f ≤ (2 * V) * scaleDen E f + scaleNum E f := by
        calc (2 * d) * scaleNum E f = 2 * (d * scaleNum E f) := by ring
          _ ≤ _ := h5
          _ = _ := by ring
      have q2 : (2 * V) * scaleDen E f ≤ (2 * d) * scaleNum E f + scaleNum E f := by
        calc (2 * V) * scaleDen E f = 2 * (V * scaleDen E f) := by ring
          _ ≤ _ := h9
          _ = _ := by ring
      -- at most half a unit away
      have r2 : (2 * V) * scaleDen E f ≤ (2 * d + 1) * scaleNum E f := by rw [Nat.add_mul, Nat.one_mul]; exact q2
      have p2 := scale_ge.mp r2
      have p1 : decimal d E - V * 2 ^ f ≤ 10 ^ E / 2 := by
        by_cases hd : d = 0
        · rw [hd]; unfold decimal; push_cast
          have : (0 : ℚ) ≤ V * 2 ^ f := by positivity
          linarith
        · have r1 : (2 * d - 1) * scaleNum E f ≤ (2 * V) * scaleDen E f := by
            have : (2 * d) * scaleNum E f = (2 * d - 1) * scaleNum E f + scaleNum E f := by
              obtain ⟨k, hk⟩ : ∃ k, 2 * d = k + 1 := ⟨2 * d - 1, by omega⟩
              rw [hk, Nat.add_sub_cancel, Nat.add_mul, Nat.one_mul]
            omega
          have := scale_le.mp r1
          unfold decimal at this ⊢
          push_cast [show 1 ≤ 2 * d by omega] at this
          linarith
      have hhalf : |(d : ℚ) * 10 ^ E - V * 2 ^ f| ≤ 10 ^ E / 2 := by
        unfold decimal at p1 p2
        push_cast at p2
        rw [abs_le]; constructor <;> linarith
      exact nearest_of_le_half hten hhalf c
    · have g1 := scale_ge.mp h5
      have hdc : d ≤ c := by
        have : d * scaleNum E f < c * scaleNum E f + scaleNum E f := lt_of_lt_of_le h9 (by
          have := scale_ge.mpr hc; omega)
        rw [← Nat.succ_mul] at this
        have := lt_of_mul_lt_mul_right this (Nat.zero_le _)
        omega
      have hle : decimal d E ≤ decimal c E := decimal_le.mpr hdc
      rw [abs_of_nonneg (by linarith), abs_of_nonneg (by linarith)]
      linarith

theorem shorter_good {T : FloatT} {eb : Nat} (hf : IsFinite T.mSize T.eSize eb 0) (h0 : eb ≠ 0) :
    Good T eb 0 (nearestShorter T ((eb : Int) - T.bias - T.mSize)) := by
  have hc : checkShorter T eb = true := by
    have := hf.1
    cases T
    · exact shorter_float eb this h0
    · exact shorter_double eb this h0
  unfold checkShorter at hc
  dsimp only at hc
  rw [← lastExp_pos T h0] at hc ⊢
  generalize hr : nearestShorter T (lastExp T.mSize T.eSize eb) = r at *
  have hu : (2 : ℚ) ^ (lastExp T.mSize T.eSize eb - 2) = half T.mSize T.eSize eb / 2 := by
    unfold half
    rw [show lastExp T.mSize T.eSize eb - 2 = (lastExp T.mSize T.eSize eb - 1) - 1 by ring, zpow_sub_one₀ (by norm_num)]
    ring
  obtain ⟨⟨s1, s2⟩, s3, s4, s5, s6, s7⟩ := shorterOk_spec hc
  rw [hu] at s1 s2 s3 s4
  have hh := half_pos T.mSize T.eSize eb
  have hp1 : 1 ≤ 2 ^ T.mSize := Nat.one_le_two_pow
  have hV : ((4 * 2 ^ T.mSize : Nat) : ℚ) * (half T.mSize T.eSize eb / 2) = value T.mSize T.eSize eb 0 := by
    rw [value_eq]; unfold sig; rw [if_neg h0]; push_cast; ring
  have hR : ((4 * 2 ^ T.mSize + 2 : Nat) : ℚ) * (half T.mSize T.eSize eb / 2) =
      value T.mSize T.eSize eb 0 + half T.mSize T.eSize eb := by
    rw [← hV]; push_cast; ring
  have hL : ((4 * 2 ^ T.mSize - (if eb = 1 then 2 else 1) : Nat) : ℚ) * (half T.mSize T.eSize eb / 2) =
      value T.mSize T.eSize eb 0 - left T.mSize T.eSize eb 0 := by
    rw [← hV]
    unfold left
    by_cases a : eb = 1
    · rw [if_pos a, if_neg (by unfold Shorter; omega)]
      push_cast [show 2 ≤ 4 * 2 ^ T.mSize by omega]; ring
    · rw [if_neg a, if_pos (by unfold Shorter; omega)]
      push_cast [show 1 ≤ 4 * 2 ^ T.mSize by omega]; ring
  rw [hL, hR] at s3
  rw [hL, hV] at s4
  rw [hL] at s1
  rw [hR] at s2
  have near : ∀ q, Near T.mSize T.eSize eb 0 q ↔ value T.mSize T.eSize eb 0 - left T.mSize T.eSize eb 0 ≤ q ∧
      q ≤ value T.mSize T.eSize eb 0 + half T.mSize T.eSize eb := by
    intro q; unfold Near; rw [if_pos rfl]
  have hv0 : 0 < value T.mSize T.eSize eb 0 := by rw [← hV]; positivity
  refine ⟨isShortest_of (one_le_mSize T) (two_le_eSize T) hf hv0 ((near _).mpr ⟨s1, s2⟩)
    (fun c hc => s3 c ((near _).mp hc).1 ((near _).mp hc).2) (fun c hc => s4 c ((near _).mp hc).1) (.inr ?_), s5, s6, s7⟩
  unfold sig
  rw [if_neg h0]
  have : 1000 ≤ 2 ^ T.mSize := by cases T <;> decide
  omega

/-- to_decimal -/
theorem toDecimal_good {T : FloatT} {eb m : Nat} (hf : IsFinite T.mSize T.eSize eb m) (h0 : ¬ (eb = 0 ∧ m = 0)) :
    Good T eb m (toDecimal T eb m) := by
  have hm2 : cu T (m * 2) = m * 2 := by
    unfold cu
    apply Nat.mod_eq_of_lt
    have := hf.2
    have : 2 ^ T.mSize * 2 < 2 ^ T.bits := by cases T <;> decide
    omega
  unfold toDecimal
  dsimp only
  rw [hm2]
  by_cases he : eb = 0
  · rw [if_neg (by simpa using he)]
    subst he
    have h1 := normal_good hf (by omega)
    rw [lastExp_zero] at h1
    unfold sig at h1
    rw [if_pos rfl, Nat.mul_comm] at h1
    exact h1
  · rw [if_pos he]
    by_cases hm : m = 0
    · rw [if_pos (by omega)]
      subst hm
      exact shorter_good hf he
    · rw [if_neg (by omega)]
      have h1 := normal_good hf hm
      rw [lastExp_pos T he] at h1
      have hor : m * 2 ||| 2 ^ (T.mSize + 1) = 2 * sig T.mSize eb m := by
        have h2 := Nat.two_pow_add_eq_or_of_lt (b := m * 2) (i := T.mSize + 1) (by
          have := hf.2
          rw [Nat.pow_succ]; omega) 1
        rw [Nat.mul_one] at h2
        rw [Nat.or_comm, ← h2]
        unfold sig; rw [if_neg he, Nat.pow_succ]; ring
      rw [hor]
      exact h1

end Strf.Dragonbox

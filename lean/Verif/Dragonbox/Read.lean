import Verif.Dragonbox.Spec
import Mathlib.Tactic.Linarith
import Mathlib.Tactic.Positivity
import Mathlib.Tactic.NormNum
import Mathlib.Tactic.Ring
import Mathlib.Tactic.SplitIfs
import Mathlib.Tactic.FieldSimp
/-
The numbers read as a given one are an interval.
-/
namespace Strf.Dragonbox
open Spec

/-- the significand -/
def sig (p eb m : Nat) : Nat := if eb = 0 then m else 2 ^ p + m
/-- the exponent of the last bit -/
def lastExp (p w eb : Nat) : Int := (if eb = 0 then 1 else (eb : Int)) - bias w - p
/-- the distance of the number to the next smaller one is half of the distance to the next greater one -/
def Shorter (eb m : Nat) : Prop := m = 0 ∧ 2 ≤ eb
instance (eb m : Nat) : Decidable (Shorter eb m) := by unfold Shorter; infer_instance
/-- half the distance to the next greater number -/
def half (p w eb : Nat) : ℚ := 2 ^ (lastExp p w eb - 1)
/-- the half of the distance to the next smaller number -/
def left (p w eb m : Nat) : ℚ := if Shorter eb m then half p w eb / 2 else half p w eb

/-- the interval -/
def Near (p w eb m : Nat) (q : ℚ) : Prop :=
  if m % 2 = 0 then value p w eb m - left p w eb m ≤ q ∧ q ≤ value p w eb m + half p w eb
  else value p w eb m - left p w eb m < q ∧ q < value p w eb m + half p w eb

theorem two_half (p w eb : Nat) : 2 * half p w eb = 2 ^ lastExp p w eb := by
  unfold half
  rw [zpow_sub_one₀ (by norm_num)]; ring

theorem half_pos (p w eb : Nat) : 0 < half p w eb := by unfold half; positivity

theorem left_pos (p w eb m : Nat) : 0 < left p w eb m := by
  unfold left; have := half_pos p w eb; split_ifs <;> linarith

theorem value_eq (p w eb m : Nat) : value p w eb m = (sig p eb m : ℚ) * (2 * half p w eb) := by
  rw [two_half]; unfold value sig lastExp
  split_ifs <;> rfl

theorem value_nonneg (p w eb m : Nat) : 0 ≤ value p w eb m := by
  rw [value_eq]; have := half_pos p w eb; positivity

/-- the step of a smaller exponent -/
theorem step_lt {p w eb eb' : Nat} (h : eb' < eb) (h2 : 2 ≤ eb) : 2 * half p w eb' ≤ half p w eb := by
  rw [two_half]
  unfold half
  apply zpow_le_zpow_right₀ (by norm_num)
  unfold lastExp
  split_ifs <;> omega

theorem step_ge {p w eb eb' : Nat} (h : eb ≤ eb' ∨ eb ≤ 1) : ∃ k : Nat, 2 * half p w eb' = (2 ^ k : Nat) * (2 * half p w eb) := by
  rw [two_half, two_half]
  refine ⟨(lastExp p w eb' - lastExp p w eb).toNat, ?_⟩
  have hle : lastExp p w eb ≤ lastExp p w eb' := by unfold lastExp; split_ifs <;> omega
  push_cast
  rw [← zpow_natCast, ← zpow_add₀ (by norm_num)]
  congr 1
  omega

/-- the other numbers are not between the neighbours -/
theorem gap {p w eb m eb' m' : Nat} (hm' : m' < 2 ^ p) (hne : value p w eb' m' ≠ value p w eb m) :
    value p w eb m + 2 * half p w eb ≤ value p w eb' m' ∨ value p w eb' m' ≤ value p w eb m - 2 * left p w eb m := by
  have hh := half_pos p w eb
  by_cases hc : eb ≤ eb' ∨ eb ≤ 1
  · -- a multiple of the step
    obtain ⟨k, hk⟩ := step_ge (p := p) (w := w) hc
    have hv : value p w eb' m' = ((sig p eb' m' * 2 ^ k : Nat) : ℚ) * (2 * half p w eb) := by
      rw [value_eq, hk]; push_cast; ring
    have hl : left p w eb m ≤ half p w eb := by unfold left; split_ifs <;> linarith
    rw [hv] at hne ⊢
    rw [value_eq p w eb m] at hne ⊢
    generalize sig p eb' m' * 2 ^ k = a at *
    generalize sig p eb m = b at *
    rcases Nat.lt_trichotomy a b with h | h | h
    · right
      have : ((a + 1 : Nat) : ℚ) ≤ b := by exact_mod_cast h
      push_cast at this
      nlinarith
    · exact absurd (by rw [h]) hne
    · left
      have : ((b + 1 : Nat) : ℚ) ≤ a := by exact_mod_cast h
      push_cast at this
      nlinarith
  · right
    have h1 : eb' < eb := by omega
    have h2 : 2 ≤ eb := by omega
    have hs := step_lt (p := p) (w := w) h1 h2
    have hsig : sig p eb' m' + 1 ≤ 2 ^ p * 2 := by unfold sig; split_ifs <;> omega
    have hsq : ((sig p eb' m' : ℚ)) ≤ 2 ^ p * 2 - 1 := by
      have : ((sig p eb' m' + 1 : Nat) : ℚ) ≤ ((2 ^ p * 2 : Nat) : ℚ) := by exact_mod_cast hsig
      push_cast at this; linarith
    have hv : value p w eb' m' ≤ (2 ^ p * 2 - 1) * half p w eb := by
      rw [value_eq]
      have h0 := half_pos p w eb'
      calc (sig p eb' m' : ℚ) * (2 * half p w eb') ≤ (sig p eb' m' : ℚ) * half p w eb :=
            mul_le_mul_of_nonneg_left hs (Nat.cast_nonneg _)
        _ ≤ _ := mul_le_mul_of_nonneg_right hsq hh.le
    have hsig2 : (sig p eb m : ℚ) = 2 ^ p + m := by
      unfold sig; rw [if_neg (by omega)]; push_cast; ring
    rw [value_eq p w eb m, hsig2]
    unfold left
    split_ifs with hsh
    · rw [hsh.1]; push_cast; linarith
    · have hm1 : (1 : ℚ) ≤ m := by
        have : 1 ≤ m := by
          by_contra hc
          exact hsh ⟨by omega, h2⟩
        exact_mod_cast this
      nlinarith

/-- the next greater number -/
theorem above {p w eb m : Nat} (hf : IsFinite p w eb m) (hmax : ¬ (eb = 2 ^ w - 2 ∧ m = 2 ^ p - 1)) :
    ∃ eb' m', IsFinite p w eb' m' ∧ value p w eb' m' = value p w eb m + 2 * half p w eb ∧ (1 ≤ p → m' % 2 ≠ m % 2) := by
  obtain ⟨h1, h2⟩ := hf
  by_cases hm : m + 1 < 2 ^ p
  · refine ⟨eb, m + 1, ⟨h1, hm⟩, ?_, fun _ => by omega⟩
    rw [value_eq, value_eq]
    have : sig p eb (m + 1) = sig p eb m + 1 := by unfold sig; split_ifs <;> rfl
    rw [this]; push_cast; ring
  · refine ⟨eb + 1, 0, ⟨by omega, by positivity⟩, ?_, fun hp => ?_⟩
    case refine_2 =>
      obtain ⟨k, rfl⟩ : ∃ k, p = k + 1 := ⟨p - 1, by omega⟩
      rw [Nat.pow_succ] at hm h2
      omega
    have hm2 : m + 1 = 2 ^ p := by omega
    have hmq : (m : ℚ) = 2 ^ p - 1 := by
      have : ((m + 1 : Nat) : ℚ) = ((2 ^ p : Nat) : ℚ) := by rw [hm2]
      push_cast at this; linarith
    rw [value_eq, value_eq, two_half, two_half]
    by_cases h0 : eb = 0
    · subst h0
      have : lastExp p w (0 + 1) = lastExp p w 0 := by unfold lastExp; simp
      rw [this]
      unfold sig
      simp only [Nat.zero_add, one_ne_zero, if_false, if_true, Nat.add_zero]
      rw [hmq]; push_cast; ring
    · have : lastExp p w (eb + 1) = lastExp p w eb + 1 := by
        unfold lastExp; rw [if_neg h0, if_neg (by omega)]; push_cast; ring
      rw [this, zpow_add_one₀ (by norm_num)]
      unfold sig
      rw [if_neg h0, if_neg (by omega)]
      push_cast
      rw [hmq]; ring

/-- the next smaller number -/
theorem below {p w eb m : Nat} (hf : IsFinite p w eb m) (h0 : 0 < value p w eb m) :
    ∃ eb' m', IsFinite p w eb' m' ∧ value p w eb' m' = value p w eb m - 2 * left p w eb m := by
  obtain ⟨h1, h2⟩ := hf
  by_cases hm : m = 0
  · have he : 1 ≤ eb := by
      by_contra hc
      have he0 : eb = 0 := by omega
      rw [he0, hm] at h0
      unfold value at h0
      simp at h0
    refine ⟨eb - 1, 2 ^ p - 1, ⟨by omega, by have : 0 < 2 ^ p := by positivity
                                             omega⟩, ?_⟩
    have hc : ((2 ^ p - 1 : Nat) : ℚ) = 2 ^ p - 1 := by
      have : 1 ≤ 2 ^ p := Nat.one_le_two_pow
      push_cast [this]; ring
    by_cases he1 : eb = 1
    · subst he1
      have hl : left p w 1 m = half p w 1 := by unfold left; rw [if_neg (by unfold Shorter; omega)]
      have : lastExp p w (1 - 1) = lastExp p w 1 := by unfold lastExp; simp
      rw [hl, value_eq, value_eq, two_half, two_half, this]
      unfold sig
      simp only [Nat.sub_self, one_ne_zero, if_false, if_true]
      rw [hm, hc]; push_cast; ring
    · have hl : 2 * left p w eb m = half p w eb := by
        unfold left; rw [if_pos ⟨hm, by omega⟩]; ring
      have : lastExp p w eb = lastExp p w (eb - 1) + 1 := by
        unfold lastExp; rw [if_neg (by omega), if_neg (by omega)]; omega
      have hh : half p w eb = 2 * half p w (eb - 1) := by
        rw [two_half]; unfold half; rw [this]; congr 1; ring
      rw [hl, hh, value_eq, value_eq, hh]
      unfold sig
      rw [if_neg (by omega), if_neg (by omega), hm]
      push_cast [Nat.one_le_two_pow (n := p)]
      ring
  · refine ⟨eb, m - 1, ⟨h1, by omega⟩, ?_⟩
    have hl : left p w eb m = half p w eb := by unfold left; rw [if_neg (by unfold Shorter; omega)]
    rw [hl, value_eq, value_eq]
    have : sig p eb m = sig p eb (m - 1) + 1 := by unfold sig; split_ifs <;> omega
    rw [this]; push_cast; ring

theorem bits_max (p w : Nat) (hw : 2 ≤ w) :
    overflow p w = value p w (2 ^ w - 2) (2 ^ p - 1) + half p w (2 ^ w - 2) := by
  have h4 : 4 ≤ 2 ^ w := by
    calc 4 = 2 ^ 2 := rfl
      _ ≤ 2 ^ w := Nat.pow_le_pow_right (by norm_num) hw
  have hne : 2 ^ w - 2 ≠ 0 := by omega
  have h1 : 1 ≤ 2 ^ p := Nat.one_le_two_pow
  have h5 : 1 ≤ 2 ^ (p + 2) := Nat.one_le_two_pow
  rw [value_eq]
  unfold overflow sig
  rw [if_neg hne]
  have hh : half p w (2 ^ w - 2) = 2 ^ ((2 ^ w - 2 : Int) - bias w - p - 1) := by
    unfold half lastExp
    rw [if_neg hne]
    congr 3
    push_cast [show 2 ≤ 2 ^ w by omega]
    ring
  rw [hh]
  push_cast [h1, h5]
  ring

theorem finite_lt {p w eb m : Nat} (hw : 2 ≤ w) (hf : IsFinite p w eb m) : value p w eb m < overflow p w := by
  rw [bits_max p w hw]
  have h4 : 4 ≤ 2 ^ w := by
    calc 4 = 2 ^ 2 := rfl
      _ ≤ 2 ^ w := Nat.pow_le_pow_right (by norm_num) hw
  have hh := half_pos p w (2 ^ w - 2)
  by_cases he : value p w eb m = value p w (2 ^ w - 2) (2 ^ p - 1)
  · rw [he]; linarith
  rcases gap (p := p) (w := w) (eb := 2 ^ w - 2) (m := 2 ^ p - 1) hf.2 he with h | h
  · -- it is not greater
    exfalso
    have hsig : sig p eb m + 1 ≤ 2 ^ p * 2 := by have := hf.2; unfold sig; split_ifs <;> omega
    have hs : 2 * half p w eb ≤ 2 * half p w (2 ^ w - 2) := by
      rw [two_half, two_half]
      apply zpow_le_zpow_right₀ (by norm_num)
      have := hf.1
      unfold lastExp
      split_ifs <;> omega
    have hsq : ((sig p eb m : ℚ)) ≤ 2 ^ p * 2 - 1 := by
      have : ((sig p eb m + 1 : Nat) : ℚ) ≤ ((2 ^ p * 2 : Nat) : ℚ) := by exact_mod_cast hsig
      push_cast at this; linarith
    have hv : value p w eb m ≤ (2 ^ p * 2 - 1) * (2 * half p w (2 ^ w - 2)) := by
      rw [value_eq]
      calc (sig p eb m : ℚ) * (2 * half p w eb) ≤ (sig p eb m : ℚ) * (2 * half p w (2 ^ w - 2)) :=
            mul_le_mul_of_nonneg_left hs (Nat.cast_nonneg _)
        _ ≤ _ := mul_le_mul_of_nonneg_right hsq (by linarith)
    have hm : value p w (2 ^ w - 2) (2 ^ p - 1) = (2 ^ p * 2 - 1) * (2 * half p w (2 ^ w - 2)) := by
      rw [value_eq]; unfold sig
      rw [if_neg (by omega)]
      push_cast [Nat.one_le_two_pow (n := p)]
      ring
    rw [hm] at h
    linarith
  · have := left_pos p w (2 ^ w - 2) (2 ^ p - 1)
    linarith

/-- Reading is being in the interval. -/
theorem readsAs_iff {p w eb m : Nat} (hp : 1 ≤ p) (hw : 2 ≤ w) (hf : IsFinite p w eb m) (h0 : 0 < value p w eb m) (q : ℚ) :
    ReadsAs p w eb m q ↔ Near p w eb m q := by
  have hh := half_pos p w eb
  have hl := left_pos p w eb m
  have hpe : 2 ^ p % 2 = 0 := by
    obtain ⟨k, rfl⟩ : ∃ k, p = k + 1 := ⟨p - 1, by omega⟩
    rw [Nat.pow_succ]; omega
  constructor
  · rintro ⟨h1, h2, h3⟩
    -- the left end
    have L : value p w eb m - left p w eb m ≤ q ∧ (value p w eb m - left p w eb m = q → m % 2 = 0) := by
      obtain ⟨eb', m', hf', hv'⟩ := below hf h0
      have hle := h2 eb' m' hf'
      rw [hv'] at hle
      refine ⟨?_, fun he => h3 eb' m' hf' ?_ ?_⟩
      · by_contra hc
        rw [abs_of_pos (by linarith)] at hle
        have := abs_le.mp (le_refl |value p w eb m - 2 * left p w eb m - q|)
        rcases abs_cases (value p w eb m - 2 * left p w eb m - q) with ⟨ha, hb⟩ | ⟨ha, hb⟩ <;> rw [ha] at hle <;> linarith
      · rw [hv', ← he]
        rw [show value p w eb m - (value p w eb m - left p w eb m) = left p w eb m by ring,
          show value p w eb m - 2 * left p w eb m - (value p w eb m - left p w eb m) = -left p w eb m by ring, abs_neg]
      · rw [hv']; linarith
    have R : q ≤ value p w eb m + half p w eb ∧ (value p w eb m + half p w eb = q → m % 2 = 0) := by
      by_cases hmax : eb = 2 ^ w - 2 ∧ m = 2 ^ p - 1
      · rw [bits_max p w hw, ← hmax.1, ← hmax.2] at h1
        exact ⟨h1.le, fun he => absurd he.symm (ne_of_lt h1)⟩
      · obtain ⟨eb', m', hf', hv', -⟩ := above hf hmax
        have hle := h2 eb' m' hf'
        rw [hv'] at hle
        refine ⟨?_, fun he => h3 eb' m' hf' ?_ ?_⟩
        · by_contra hc
          rw [abs_of_neg (by linarith)] at hle
          rcases abs_cases (value p w eb m + 2 * half p w eb - q) with ⟨ha, hb⟩ | ⟨ha, hb⟩ <;> rw [ha] at hle <;> linarith
        · rw [hv', ← he]
          rw [show value p w eb m - (value p w eb m + half p w eb) = -half p w eb by ring,
            show value p w eb m + 2 * half p w eb - (value p w eb m + half p w eb) = half p w eb by ring, abs_neg]
        · rw [hv']; linarith
    unfold Near
    split_ifs with hm
    · exact ⟨L.1, R.1⟩
    · exact ⟨lt_of_le_of_ne L.1 (fun h => hm (L.2 h)), lt_of_le_of_ne R.1 (fun h => hm (R.2 h.symm))⟩
  · intro hn
    have weak : value p w eb m - left p w eb m ≤ q ∧ q ≤ value p w eb m + half p w eb := by
      unfold Near at hn; split_ifs at hn
      · exact hn
      · exact ⟨hn.1.le, hn.2.le⟩
    obtain ⟨w1, w2⟩ := weak
    have key : ∀ eb' m', IsFinite p w eb' m' → value p w eb' m' ≠ value p w eb m →
        |value p w eb m - q| ≤ |value p w eb' m' - q| ∧ (|value p w eb m - q| = |value p w eb' m' - q| →
          q = value p w eb m - left p w eb m ∨ q = value p w eb m + half p w eb) := by
      intro eb' m' hf' hne
      rcases gap (p := p) (w := w) (eb := eb) (m := m) hf'.2 hne with g | g
      · rw [abs_of_pos (show 0 < value p w eb' m' - q by linarith)]
        rcases abs_cases (value p w eb m - q) with ⟨ha, hb⟩ | ⟨ha, hb⟩ <;> rw [ha]
        · exact ⟨by linarith, fun he => by exfalso; linarith⟩
        · exact ⟨by linarith, fun he => .inr (by linarith)⟩
      · rw [abs_of_neg (show value p w eb' m' - q < 0 by linarith)]
        rcases abs_cases (value p w eb m - q) with ⟨ha, hb⟩ | ⟨ha, hb⟩ <;> rw [ha]
        · exact ⟨by linarith, fun he => .inl (by linarith)⟩
        · exact ⟨by linarith, fun he => by exfalso; linarith⟩
    refine ⟨?_, ?_, ?_⟩
    · by_cases hmax : eb = 2 ^ w - 2 ∧ m = 2 ^ p - 1
      · rw [bits_max p w hw, ← hmax.1, ← hmax.2]
        unfold Near at hn
        rw [if_neg (by rw [hmax.2]; have : 1 ≤ 2 ^ p := Nat.one_le_two_pow
                       omega)] at hn
        exact hn.2
      · obtain ⟨eb', m', hf', hv', -⟩ := above hf hmax
        have := finite_lt hw hf'
        linarith
    · intro eb' m' hf'
      by_cases he : value p w eb' m' = value p w eb m
      · rw [he]
      · exact (key eb' m' hf' he).1
    · intro eb' m' hf' heq hne
      by_contra hm
      unfold Near at hn
      rw [if_neg hm] at hn
      rcases (key eb' m' hf' hne).2 heq with h | h
      · exact absurd h.symm (ne_of_lt hn.1)
      · exact absurd h (ne_of_lt hn.2)

/-- different bits are different numbers -/
theorem value_lt {p w eb m eb' m' : Nat} (hm : m < 2 ^ p) (h : eb < eb') : value p w eb m < value p w eb' m' := by
  have hs' : 2 ^ p ≤ sig p eb' m' := by unfold sig; rw [if_neg (by omega)]; omega
  have hq' : (2 : ℚ) ^ p ≤ sig p eb' m' := by exact_mod_cast hs'
  have hh := half_pos p w eb
  have hh' := half_pos p w eb'
  rw [value_eq, value_eq]
  by_cases h2 : 2 ≤ eb'
  · have hs := step_lt (p := p) (w := w) h h2
    have hsig : sig p eb m + 1 ≤ 2 ^ p * 2 := by unfold sig; split_ifs <;> omega
    have hsq : ((sig p eb m : ℚ)) ≤ 2 ^ p * 2 - 1 := by
      have : ((sig p eb m + 1 : Nat) : ℚ) ≤ ((2 ^ p * 2 : Nat) : ℚ) := by exact_mod_cast hsig
      push_cast at this; linarith
    calc (sig p eb m : ℚ) * (2 * half p w eb) ≤ (sig p eb m : ℚ) * half p w eb' :=
          mul_le_mul_of_nonneg_left hs (Nat.cast_nonneg _)
      _ ≤ (2 ^ p * 2 - 1) * half p w eb' := mul_le_mul_of_nonneg_right hsq hh'.le
      _ < 2 ^ p * (2 * half p w eb') := by linarith
      _ ≤ _ := mul_le_mul_of_nonneg_right hq' (by linarith)
  · have e0 : eb = 0 := by omega
    have e1 : eb' = 1 := by omega
    subst e0 e1
    have : half p w 1 = half p w 0 := by unfold half lastExp; simp
    rw [this]
    have hsig : (sig p 0 m : ℚ) < 2 ^ p := by
      unfold sig; rw [if_pos rfl]; exact_mod_cast hm
    exact mul_lt_mul_of_pos_right (by linarith) (by linarith)

theorem value_injective {p w eb m eb' m' : Nat} (hm : m < 2 ^ p) (hm' : m' < 2 ^ p) (h : value p w eb m = value p w eb' m') :
    eb = eb' ∧ m = m' := by
  rcases Nat.lt_trichotomy eb eb' with hlt | heq | hlt
  · exact absurd h (ne_of_lt (value_lt hm hlt))
  · subst heq
    refine ⟨rfl, ?_⟩
    rw [value_eq, value_eq] at h
    have hh := half_pos p w eb
    have := mul_right_cancel₀ (show (2 * half p w eb) ≠ 0 by linarith) h
    have h3 : sig p eb m = sig p eb m' := by exact_mod_cast this
    unfold sig at h3
    split_ifs at h3 <;> omega
  · exact absurd h.symm (ne_of_lt (value_lt hm' hlt))

/-- a decimal number is read as one number only -/
theorem reads_unique_aux {p w eb m eb' m' : Nat} (hp : 1 ≤ p) (hw : 2 ≤ w) (hf : IsFinite p w eb m) (hf' : IsFinite p w eb' m')
    {q : ℚ} (h : ReadsAs p w eb m q) (h' : ReadsAs p w eb' m' q) (hlt : value p w eb m < value p w eb' m') : False := by
  have d1 := h.nearest eb' m' hf'
  have d2 := h'.nearest eb m hf
  have heq : |value p w eb m - q| = |value p w eb' m' - q| := le_antisymm d1 d2
  have t1 := h.ties eb' m' hf' heq (ne_of_gt hlt)
  have t2 := h'.ties eb m hf heq.symm (ne_of_lt hlt)
  have hq : value p w eb m - q < 0 ∧ 0 < value p w eb' m' - q ∧ q - value p w eb m = value p w eb' m' - q := by
    rcases abs_cases (value p w eb m - q) with ⟨a1, a2⟩ | ⟨a1, a2⟩ <;>
      rcases abs_cases (value p w eb' m' - q) with ⟨b1, b2⟩ | ⟨b1, b2⟩ <;> rw [a1, b1] at heq <;>
      refine ⟨?_, ?_, ?_⟩ <;> linarith
  have hg : value p w eb m + 2 * half p w eb ≤ value p w eb' m' := by
    rcases gap (p := p) (w := w) (eb := eb) (m := m) hf'.2 (ne_of_gt hlt) with g | g
    · exact g
    · have := left_pos p w eb m
      linarith
  have hh := half_pos p w eb
  by_cases hmax : eb = 2 ^ w - 2 ∧ m = 2 ^ p - 1
  · have h1 := finite_lt hw hf'
    rw [bits_max p w hw, ← hmax.1, ← hmax.2] at h1
    linarith
  obtain ⟨eu, mu, hfu, hvu, hpu⟩ := above hf hmax
  have hn := h.nearest eu mu hfu
  by_cases he : value p w eu mu = value p w eb' m'
  · obtain ⟨-, rfl⟩ := value_injective hfu.2 hf'.2 he
    have := hpu hp
    omega
  · have : value p w eu mu < value p w eb' m' := lt_of_le_of_ne (by linarith) he
    rw [abs_of_neg hq.1] at hn
    rcases abs_cases (value p w eu mu - q) with ⟨a1, a2⟩ | ⟨a1, a2⟩ <;> rw [a1] at hn <;> linarith [hq.2.2]

end Strf.Dragonbox

import Verif.Dragonbox.Read
import Verif.Float.Digits
/-
A condition for a decimal number in an interval to be the shortest, and the closest of the shortest.
-/
namespace Strf.Dragonbox
open Spec Strf.Float

theorem digits_of_div {a b : Nat} (h : a / 10 = b / 10) : digits a = digits b := by
  unfold digits
  by_cases ha : a < 10
  · rw [len_lt a ha, len_lt b (by omega)]
  · rw [len_ge a (by omega), len_ge b (by omega), h]

theorem digits_le_of_le {a b : Nat} (h : a ≤ b) : digits a ≤ digits b := by
  unfold digits
  exact len_le a _ (len_pos10 b) (lt_of_le_of_lt h (lt_of_len b _ (Nat.le_refl _)))

/-- more digits -/
theorem digits_mul (c w : Nat) (h : 0 < c) : digits (c * 10 ^ w) = digits c + w := by
  induction w with
  | zero => simp
  | succ w ih =>
    have h1 : 1 ≤ c * 10 ^ w := Nat.mul_pos h (by positivity)
    have h2 : c * 10 ^ (w + 1) = c * 10 ^ w * 10 := by rw [Nat.pow_succ, Nat.mul_assoc]
    unfold digits at *
    rw [h2, len_ge _ (by omega), Nat.mul_div_cancel _ (by norm_num), ih]; omega

theorem decimal_shift (m : Nat) (j : Int) (w : Nat) : decimal m (j + w) = decimal (m * 10 ^ w) j := by
  unfold decimal
  rw [zpow_add₀ (by norm_num), zpow_natCast]; push_cast; ring

theorem decimal_le {a b : Nat} {j : Int} : decimal a j ≤ decimal b j ↔ a ≤ b := by
  unfold decimal
  rw [mul_le_mul_iff_left₀ (by positivity)]
  exact Nat.cast_le

theorem decimal_lt {a b : Nat} {j : Int} : decimal a j < decimal b j ↔ a < b := by
  unfold decimal
  rw [mul_lt_mul_iff_left₀ (by positivity)]
  exact Nat.cast_lt

theorem shortest_of {I : ℚ → Prop} (convex : ∀ a b c, I a → I b → a ≤ c → c ≤ b → I c) {v lo : ℚ} {d : Nat} {E : Int}
    (hI : I (decimal d E)) (hno : ∀ c, ¬ I (decimal c (E + 1)))
    (hnear : ∀ c, I (decimal c E) → |decimal d E - v| ≤ |decimal c E - v|) (hlo : ∀ u, I u → lo ≤ u)
    (hex : 19 * decimal 1 E ≤ 20 * v ∨ 9 * decimal 1 E < 10 * lo) (m : Nat) (j : Int) (hm : I (decimal m j)) :
    digits d ≤ digits m ∧ (digits m = digits d → |decimal d E - v| ≤ |decimal m j - v|) := by
  obtain ⟨c, hc⟩ : ∃ c, c = d / 10 := ⟨_, rfl⟩
  have e1 : ∀ a : Nat, decimal a (E + 1) = decimal (a * 10) E := by
    intro a
    have := decimal_shift a E 1
    simpa using this
  have t1 : decimal c (E + 1) ≤ decimal d E := by rw [e1, decimal_le]; omega
  have t2 : decimal d E ≤ decimal (c + 1) (E + 1) := by rw [e1, decimal_le]; omega
  have d0 : d % 10 ≠ 0 := by
    intro h0
    apply hno c
    rw [e1, show c * 10 = d by omega]
    exact hI
  have u1 : decimal c (E + 1) < decimal m j := by
    by_contra h
    exact hno c (convex _ _ _ hm hI (by linarith) t1)
  have u2 : decimal m j < decimal (c + 1) (E + 1) := by
    by_contra h
    exact hno (c + 1) (convex _ _ _ hI hm t2 (by linarith))
  rcases lt_trichotomy j E with hj | hj | hj
  · obtain ⟨w, hw, rfl⟩ : ∃ w : Nat, 1 ≤ w ∧ E = j + w := ⟨(E - j).toNat, by omega, by omega⟩
    have hcm : c * 10 * 10 ^ w < m := by
      rw [e1, decimal_shift, decimal_lt] at u1
      exact u1
    by_cases c0 : c = 0
    · have hd1 : digits d = 1 := by unfold digits; rw [len_lt d (by omega)]
      have hm1 : 1 ≤ digits m := by unfold digits; exact len_pos10 m
      refine ⟨by omega, fun he => ?_⟩
      have hm9 : m ≤ 9 := by
        have := lt_of_len m 1 (by unfold digits at *; omega)
        omega
      -- 10 u ≤ 9·10^E
      have hu : 10 * decimal m j ≤ 9 * decimal 1 (j + w) := by
        have h1 : m * 10 ≤ 9 * 10 ^ w := by
          obtain ⟨w', rfl⟩ : ∃ w', w = w' + 1 := ⟨w - 1, by omega⟩
          have : 1 ≤ 10 ^ w' := Nat.one_le_pow _ _ (by norm_num)
          rw [Nat.pow_succ]; omega
        have h2 : decimal (m * 10) j ≤ decimal (9 * 10 ^ w) j := decimal_le.mpr h1
        rw [decimal_shift]
        unfold decimal at *
        push_cast at h2 ⊢
        linarith
      rcases hex with hex | hex
      · have d1 : 1 ≤ d := by omega
        have hp : 0 < decimal 1 (j + w) := by unfold decimal; positivity
        have hI1 : I (decimal 1 (j + w)) := convex _ _ _ hm hI (by linarith) (decimal_le.mpr d1)
        have hn := hnear 1 hI1
        refine le_trans hn ?_
        rw [abs_sub_comm (decimal m j), abs_of_nonneg (show 0 ≤ v - decimal m j by linarith), abs_le]
        constructor <;> linarith
      · have := hlo _ hm
        linarith
    · have hlen : digits (c * 10 ^ (w + 1)) ≤ digits m :=
        digits_le_of_le (by rw [Nat.pow_succ, Nat.mul_comm (10 ^ w), ← Nat.mul_assoc]; omega)
      rw [digits_mul c (w + 1) (by omega)] at hlen
      have hdc : digits d = digits c + 1 := by unfold digits; rw [len_ge d (by omega), hc]
      exact ⟨by omega, fun he => by omega⟩
  · subst hj
    rw [e1, decimal_lt] at u1 u2
    have := digits_of_div (a := d) (b := m) (by omega)
    exact ⟨by omega, fun _ => hnear m hm⟩
  · exfalso
    obtain ⟨w, rfl⟩ : ∃ w : Nat, j = E + 1 + w := ⟨(j - E - 1).toNat, by omega⟩
    rw [decimal_shift] at hm
    exact hno _ hm

/-- the interval is convex -/
theorem near_convex (p w eb m : Nat) (a b c : ℚ) (ha : Near p w eb m a) (hb : Near p w eb m b) (h1 : a ≤ c) (h2 : c ≤ b) :
    Near p w eb m c := by
  unfold Near at *
  split_ifs at * <;> constructor <;> linarith

theorem near_lo {p w eb m : Nat} {u : ℚ} (h : Near p w eb m u) : value p w eb m - left p w eb m ≤ u := by
  unfold Near at h; split_ifs at h <;> linarith

theorem near_hi {p w eb m : Nat} {u : ℚ} (h : Near p w eb m u) : u ≤ value p w eb m + half p w eb := by
  unfold Near at h; split_ifs at h <;> linarith

/-- From the conditions on the interval to the specification. -/
theorem isShortest_of {p w eb m : Nat} (hp : 1 ≤ p) (hw : 2 ≤ w) (hf : IsFinite p w eb m) (h0 : 0 < value p w eb m) {d : Nat}
    {E : Int} (hI : Near p w eb m (decimal d E)) (hno : ∀ c, ¬ Near p w eb m (decimal c (E + 1)))
    (hnear : ∀ c, Near p w eb m (decimal c E) → |decimal d E - value p w eb m| ≤ |decimal c E - value p w eb m|)
    (hsmall : 19 * decimal 1 E ≤ 20 * value p w eb m ∨ 20 ≤ 2 * sig p eb m) : IsShortest p w eb m d E := by
  have hr := readsAs_iff hp hw hf h0
  have hd : d % 10 ≠ 0 := by
    intro h
    have := decimal_shift (d / 10) E 1
    rw [show d / 10 * 10 ^ 1 = d by omega] at this
    exact hno (d / 10) (by rw [Nat.cast_one] at this; rw [this]; exact hI)
  have hex : 19 * decimal 1 E ≤ 20 * value p w eb m ∨ 9 * decimal 1 E < 10 * (value p w eb m - left p w eb m) := by
    rcases hsmall with h | h
    · exact .inl h
    · right
      have h1 := near_hi hI
      have h2 : decimal 1 E ≤ decimal d E := decimal_le.mpr (by omega)
      have hh := half_pos p w eb
      have hl : left p w eb m ≤ half p w eb := by unfold left; split_ifs <;> linarith
      have hs : (10 : ℚ) ≤ sig p eb m := by exact_mod_cast (show 10 ≤ sig p eb m by omega)
      have hv := value_eq p w eb m
      have : 20 * half p w eb ≤ value p w eb m := by rw [hv]; nlinarith
      linarith
  have key := shortest_of (near_convex p w eb m) hI hno hnear (fun u => near_lo) hex
  exact ⟨(hr _).mpr hI, fun d' E' h => (key d' E' ((hr _).mp h)).1, fun d' E' h => (key d' E' ((hr _).mp h)).2, hd⟩

end Strf.Dragonbox

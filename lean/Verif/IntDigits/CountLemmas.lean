import Mathlib.Data.Nat.Digits.Lemmas
import Mathlib.Tactic.SplitIfs
import Mathlib.Tactic.NormNum
import Verif.IntDigits.Model
/-
Lemmas: the number of digits.
-/
namespace Strf.IntDigits
open Spec

theorem numeral_length_iff (b : Nat) (hb : 1 < b) (v n : Nat) (hn : 1 ≤ n) (hlo : n = 1 ∨ b ^ (n - 1) ≤ v)
    (hhi : v < b ^ n) : (numeral b v).length = n := by
  unfold numeral
  by_cases hv : v = 0
  · subst hv
    rcases hlo with rfl | h
    · rfl
    · have : 0 < b ^ (n - 1) := Nat.pow_pos (by omega)
      omega
  · rw [if_neg hv, List.length_reverse]
    have h1 := (Nat.digits_length_le_iff hb (k := n) v).mpr hhi
    have h2 : n - 1 < (Nat.digits b v).length := by
      rcases hlo with rfl | h
      · have := Nat.digits_ne_nil_iff_ne_zero (b := b).mpr hv
        have := List.length_pos_iff.mpr this
        omega
      · exact (Nat.lt_digits_length_iff hb (k := n - 1) v).mpr h
    omega

theorem len_lit (b : Nat) (v n : Nat) (hb : 1 < b) (hn : 1 ≤ n) (hlo : n = 1 ∨ b ^ (n - 1) ≤ v)
    (hhi : v < b ^ n) : n = (numeral b v).length := (numeral_length_iff b hb v n hn hlo hhi).symm

theorem numeral_bounds (b : Nat) (hb : 1 < b) (v : Nat) :
    1 ≤ (numeral b v).length ∧ ((numeral b v).length = 1 ∨ b ^ ((numeral b v).length - 1) ≤ v) ∧
      v < b ^ (numeral b v).length := by
  unfold numeral
  by_cases hv : v = 0
  · subst hv; simp; omega
  · rw [if_neg hv, List.length_reverse]
    have := Nat.digits_ne_nil_iff_ne_zero (b := b).mpr hv
    have h0 := List.length_pos_iff.mpr this
    refine ⟨h0, Or.inr ?_, ?_⟩
    · exact (Nat.lt_digits_length_iff hb (k := (Nat.digits b v).length - 1) v).mp (by omega)
    · exact Nat.lt_base_pow_length_digits hb

macro "leaf" : tactic => `(tactic|
  (apply len_lit _ _ _ (by decide) (by decide)
   · first | left; rfl | (right; norm_num; omega)
   · norm_num; omega))

theorem count10_1_ok (v : Nat) (h : v < 2 ^ 8) : count10_1 v = (numeral 10 v).length := by
  unfold count10_1; split_ifs <;> leaf
theorem count10_2_ok (v : Nat) (h : v < 2 ^ 16) : count10_2 v = (numeral 10 v).length := by
  unfold count10_2; split_ifs <;> leaf
theorem count10_4_ok (v : Nat) (h : v < 2 ^ 32) : count10_4 v = (numeral 10 v).length := by
  unfold count10_4; split_ifs <;> leaf
theorem count10_8_ok (v : Nat) (h : v < 2 ^ 64) : count10_8 v = (numeral 10 v).length := by
  unfold count10_8; split_ifs <;> leaf
theorem count16_1_ok (v : Nat) (h : v < 2 ^ 8) : count16_1 v = (numeral 16 v).length := by
  unfold count16_1; split_ifs <;> leaf
theorem count16_2_ok (v : Nat) (h : v < 2 ^ 16) : count16_2 v = (numeral 16 v).length := by
  unfold count16_2; split_ifs <;> leaf
theorem count16_4_ok (v : Nat) (h : v < 2 ^ 32) : count16_4 v = (numeral 16 v).length := by
  unfold count16_4; split_ifs <;> leaf
theorem count16_8_ok (v : Nat) (h : v < 2 ^ 64) : count16_8 v = (numeral 16 v).length := by
  unfold count16_8; split_ifs <;> leaf
theorem count8_1_ok (v : Nat) (h : v < 2 ^ 8) : count8_1 v = (numeral 8 v).length := by
  unfold count8_1; split_ifs <;> leaf

/-- one halving step of the binary and octal counters -/
theorem stage (b k v n t d : Nat) (hb : 1 < b) (ht : t + 1 = b ^ k) (hd : d = b ^ k) :
    ((if v > t then (v / d, n + k) else (v, n)).2 +
      (numeral b (if v > t then (v / d, n + k) else (v, n)).1).length = n + (numeral b v).length) ∧
    (v < b ^ k * b ^ k → (if v > t then (v / d, n + k) else (v, n)).1 < b ^ k) := by
  subst hd
  by_cases h : v > t
  · rw [if_pos h]
    dsimp only
    have hp : 0 < b ^ k := Nat.pow_pos (by omega)
    refine ⟨?_, fun hv => Nat.div_lt_of_lt_mul hv⟩
    obtain ⟨h1, h2, h3⟩ := numeral_bounds b hb (v / b ^ k)
    have hq : 1 ≤ v / b ^ k := (Nat.le_div_iff_mul_le hp).mpr (by omega)
    rw [Nat.add_assoc]
    congr 1
    refine (numeral_length_iff b hb v _ (by omega) (Or.inr ?_) ?_).symm
    · have h2' : b ^ ((numeral b (v / b ^ k)).length - 1) ≤ v / b ^ k := by
        rcases h2 with h2 | h2
        · rw [h2]; simpa using hq
        · exact h2
      have := (Nat.le_div_iff_mul_le hp).mp h2'
      rw [← Nat.pow_add] at this
      rwa [show k + (numeral b (v / b ^ k)).length - 1 = (numeral b (v / b ^ k)).length - 1 + k by omega]
    · have := (Nat.div_lt_iff_lt_mul hp).mp h3
      rwa [← Nat.pow_add, Nat.add_comm] at this
  · rw [if_neg h]
    exact ⟨rfl, fun _ => by dsimp only; omega⟩

theorem last2 (v n : Nat) (h : v < 4) : (if v > 1 then n + 1 else n) + 1 = n + (numeral 2 v).length := by
  have : (numeral 2 v).length = if v > 1 then 2 else 1 := by
    symm; split_ifs <;> leaf
  rw [this]; split_ifs <;> omega

theorem last8 (v n : Nat) (h : v < 64) : (if v > 7 then n + 1 else n) + 1 = n + (numeral 8 v).length := by
  have : (numeral 8 v).length = if v > 7 then 2 else 1 := by
    symm; split_ifs <;> leaf
  rw [this]; split_ifs <;> omega

theorem count2_1_ok (v : Nat) (h : v < 2 ^ 8) : count2_1 v = (numeral 2 v).length := by
  unfold count2_1
  dsimp only
  have s1 := stage 2 4 v 1 0xf (2 ^ 4) (by decide) (by decide) rfl
  generalize (if v > 0xf then (v / 2 ^ 4, 1 + 4) else (v, 1)) = r1 at s1 ⊢
  obtain ⟨v1, n1⟩ := r1
  have s2 := stage 2 2 v1 n1 3 (2 ^ 2) (by decide) (by decide) rfl
  dsimp only at s1 ⊢
  generalize (if v1 > 3 then (v1 / 2 ^ 2, n1 + 2) else (v1, n1)) = r2 at s2 ⊢
  obtain ⟨v2, n2⟩ := r2
  dsimp only at s2 ⊢
  have b1 := s1.2 (by omega)
  have b2 := s2.2 (by omega)
  have := last2 v2 n2 (by omega)
  omega

theorem count2_2_ok (v : Nat) (h : v < 2 ^ 16) : count2_2 v = (numeral 2 v).length := by
  unfold count2_2
  dsimp only
  have s0 := stage 2 8 v 1 0xff (2 ^ 8) (by decide) (by decide) rfl
  generalize (if v > 0xff then (v / 2 ^ 8, 1 + 8) else (v, 1)) = r0 at s0 ⊢
  obtain ⟨v0, n0⟩ := r0
  have s1 := stage 2 4 v0 n0 0xf (2 ^ 4) (by decide) (by decide) rfl
  dsimp only at s0 ⊢
  generalize (if v0 > 0xf then (v0 / 2 ^ 4, n0 + 4) else (v0, n0)) = r1 at s1 ⊢
  obtain ⟨v1, n1⟩ := r1
  have s2 := stage 2 2 v1 n1 3 (2 ^ 2) (by decide) (by decide) rfl
  dsimp only at s1 ⊢
  generalize (if v1 > 3 then (v1 / 2 ^ 2, n1 + 2) else (v1, n1)) = r2 at s2 ⊢
  obtain ⟨v2, n2⟩ := r2
  dsimp only at s2 ⊢
  have b0 := s0.2 (by omega)
  have b1 := s1.2 (by omega)
  have b2 := s2.2 (by omega)
  have := last2 v2 n2 (by omega)
  omega

theorem count2_4_ok (v : Nat) (h : v < 2 ^ 32) : count2_4 v = (numeral 2 v).length := by
  unfold count2_4
  dsimp only
  have s9 := stage 2 16 v 1 0xffff (2 ^ 16) (by decide) (by decide) rfl
  generalize (if v > 0xffff then (v / 2 ^ 16, 1 + 16) else (v, 1)) = r9 at s9 ⊢
  obtain ⟨v9, n9⟩ := r9
  have s0 := stage 2 8 v9 n9 0xff (2 ^ 8) (by decide) (by decide) rfl
  dsimp only at s9 ⊢
  generalize (if v9 > 0xff then (v9 / 2 ^ 8, n9 + 8) else (v9, n9)) = r0 at s0 ⊢
  obtain ⟨v0, n0⟩ := r0
  have s1 := stage 2 4 v0 n0 0xf (2 ^ 4) (by decide) (by decide) rfl
  dsimp only at s0 ⊢
  generalize (if v0 > 0xf then (v0 / 2 ^ 4, n0 + 4) else (v0, n0)) = r1 at s1 ⊢
  obtain ⟨v1, n1⟩ := r1
  have s2 := stage 2 2 v1 n1 3 (2 ^ 2) (by decide) (by decide) rfl
  dsimp only at s1 ⊢
  generalize (if v1 > 3 then (v1 / 2 ^ 2, n1 + 2) else (v1, n1)) = r2 at s2 ⊢
  obtain ⟨v2, n2⟩ := r2
  dsimp only at s2 ⊢
  have b9 := s9.2 (by omega)
  have b0 := s0.2 (by omega)
  have b1 := s1.2 (by omega)
  have b2 := s2.2 (by omega)
  have := last2 v2 n2 (by omega)
  omega

theorem count2_8_ok (v : Nat) (h : v < 2 ^ 64) : count2_8 v = (numeral 2 v).length := by
  unfold count2_8
  dsimp only
  have s8 := stage 2 32 v 1 0xffffffff (2 ^ 32) (by decide) (by decide) rfl
  generalize (if v > 0xffffffff then (v / 2 ^ 32, 1 + 32) else (v, 1)) = r8 at s8 ⊢
  obtain ⟨v8, n8⟩ := r8
  have s9 := stage 2 16 v8 n8 0xffff (2 ^ 16) (by decide) (by decide) rfl
  dsimp only at s8 ⊢
  generalize (if v8 > 0xffff then (v8 / 2 ^ 16, n8 + 16) else (v8, n8)) = r9 at s9 ⊢
  obtain ⟨v9, n9⟩ := r9
  have s0 := stage 2 8 v9 n9 0xff (2 ^ 8) (by decide) (by decide) rfl
  dsimp only at s9 ⊢
  generalize (if v9 > 0xff then (v9 / 2 ^ 8, n9 + 8) else (v9, n9)) = r0 at s0 ⊢
  obtain ⟨v0, n0⟩ := r0
  have s1 := stage 2 4 v0 n0 0xf (2 ^ 4) (by decide) (by decide) rfl
  dsimp only at s0 ⊢
  generalize (if v0 > 0xf then (v0 / 2 ^ 4, n0 + 4) else (v0, n0)) = r1 at s1 ⊢
  obtain ⟨v1, n1⟩ := r1
  have s2 := stage 2 2 v1 n1 3 (2 ^ 2) (by decide) (by decide) rfl
  dsimp only at s1 ⊢
  generalize (if v1 > 3 then (v1 / 2 ^ 2, n1 + 2) else (v1, n1)) = r2 at s2 ⊢
  obtain ⟨v2, n2⟩ := r2
  dsimp only at s2 ⊢
  have b8 := s8.2 (by omega)
  have b9 := s9.2 (by omega)
  have b0 := s0.2 (by omega)
  have b1 := s1.2 (by omega)
  have b2 := s2.2 (by omega)
  have := last2 v2 n2 (by omega)
  omega

theorem count8_2_ok (v : Nat) (h : v < 2 ^ 16) : count8_2 v = (numeral 8 v).length := by
  unfold count8_2
  dsimp only
  have s1 := stage 8 4 v 1 0o7777 (2 ^ 12) (by decide) (by decide) rfl
  generalize (if v > 0o7777 then (v / 2 ^ 12, 1 + 4) else (v, 1)) = r1 at s1 ⊢
  obtain ⟨v1, n1⟩ := r1
  have s2 := stage 8 2 v1 n1 0o77 (2 ^ 6) (by decide) (by decide) rfl
  dsimp only at s1 ⊢
  generalize (if v1 > 0o77 then (v1 / 2 ^ 6, n1 + 2) else (v1, n1)) = r2 at s2 ⊢
  obtain ⟨v2, n2⟩ := r2
  dsimp only at s2 ⊢
  have b1 := s1.2 (by omega)
  have b2 := s2.2 (by omega)
  have := last8 v2 n2 (by omega)
  omega

theorem count8_4_ok (v : Nat) (h : v < 2 ^ 32) : count8_4 v = (numeral 8 v).length := by
  unfold count8_4
  dsimp only
  have s0 := stage 8 8 v 1 0o77777777 (2 ^ 24) (by decide) (by decide) rfl
  generalize (if v > 0o77777777 then (v / 2 ^ 24, 1 + 8) else (v, 1)) = r0 at s0 ⊢
  obtain ⟨v0, n0⟩ := r0
  have s1 := stage 8 4 v0 n0 0o7777 (2 ^ 12) (by decide) (by decide) rfl
  dsimp only at s0 ⊢
  generalize (if v0 > 0o7777 then (v0 / 2 ^ 12, n0 + 4) else (v0, n0)) = r1 at s1 ⊢
  obtain ⟨v1, n1⟩ := r1
  have s2 := stage 8 2 v1 n1 0o77 (2 ^ 6) (by decide) (by decide) rfl
  dsimp only at s1 ⊢
  generalize (if v1 > 0o77 then (v1 / 2 ^ 6, n1 + 2) else (v1, n1)) = r2 at s2 ⊢
  obtain ⟨v2, n2⟩ := r2
  dsimp only at s2 ⊢
  have b0 := s0.2 (by omega)
  have b1 := s1.2 (by omega)
  have b2 := s2.2 (by omega)
  have := last8 v2 n2 (by omega)
  omega

theorem count8_8_ok (v : Nat) (h : v < 2 ^ 64) : count8_8 v = (numeral 8 v).length := by
  unfold count8_8
  dsimp only
  have s9 := stage 8 16 v 1 0o7777777777777777 (2 ^ 48) (by decide) (by decide) rfl
  generalize (if v > 0o7777777777777777 then (v / 2 ^ 48, 1 + 16) else (v, 1)) = r9 at s9 ⊢
  obtain ⟨v9, n9⟩ := r9
  have s0 := stage 8 8 v9 n9 0o77777777 (2 ^ 24) (by decide) (by decide) rfl
  dsimp only at s9 ⊢
  generalize (if v9 > 0o77777777 then (v9 / 2 ^ 24, n9 + 8) else (v9, n9)) = r0 at s0 ⊢
  obtain ⟨v0, n0⟩ := r0
  have s1 := stage 8 4 v0 n0 0o7777 (2 ^ 12) (by decide) (by decide) rfl
  dsimp only at s0 ⊢
  generalize (if v0 > 0o7777 then (v0 / 2 ^ 12, n0 + 4) else (v0, n0)) = r1 at s1 ⊢
  obtain ⟨v1, n1⟩ := r1
  have s2 := stage 8 2 v1 n1 0o77 (2 ^ 6) (by decide) (by decide) rfl
  dsimp only at s1 ⊢
  generalize (if v1 > 0o77 then (v1 / 2 ^ 6, n1 + 2) else (v1, n1)) = r2 at s2 ⊢
  obtain ⟨v2, n2⟩ := r2
  dsimp only at s2 ⊢
  have b9 := s9.2 (by omega)
  have b0 := s0.2 (by omega)
  have b1 := s1.2 (by omega)
  have b2 := s2.2 (by omega)
  have := last8 v2 n2 (by omega)
  omega

theorem or_one (v : Nat) : v ||| 1 = 2 * (v / 2) + 1 := by
  have := Nat.two_pow_add_eq_or_of_lt (i := 1) (b := 1) (by decide) (v / 2)
  rw [Nat.pow_one] at this
  rw [this]
  have hv : v = 2 * (v / 2) + v % 2 := by omega
  rcases (by omega : v % 2 = 0 ∨ v % 2 = 1) with h | h
  · have : v = 2 * (v / 2) := by omega
    rw [← this]
  · have e : v = 2 * (v / 2) ||| 1 := by rw [← this]; omega
    rw [← e]
    conv => lhs; rw [e]
    rw [Nat.or_assoc, Nat.or_self]
    exact e.symm

theorem log2_or_one (v : Nat) : Nat.log2 (v ||| 1) + 1 = (numeral 2 v).length := by
  have hx : v ||| 1 ≠ 0 := by rw [or_one]; omega
  have h1 : 2 ^ Nat.log2 (v ||| 1) ≤ v ||| 1 := Nat.log2_self_le hx
  have h2 : v ||| 1 < 2 ^ (Nat.log2 (v ||| 1) + 1) := Nat.lt_log2_self
  generalize Nat.log2 (v ||| 1) = d at h1 h2 ⊢
  rw [or_one] at h1 h2
  symm
  apply numeral_length_iff 2 (by decide) v (d + 1) (by omega)
  · cases d with
    | zero => left; rfl
    | succ d => right; rw [Nat.pow_succ] at h1; simp only [Nat.add_sub_cancel, Nat.pow_succ]; omega
  · omega

theorem len8_of_len2 (v : Nat) : (numeral 8 v).length = ((numeral 2 v).length + 2) / 3 := by
  obtain ⟨h1, h2, h3⟩ := numeral_bounds 2 (by decide) v
  generalize (numeral 2 v).length = L at h1 h2 h3 ⊢
  apply numeral_length_iff 8 (by decide) v _ (by omega)
  · by_cases hL : L ≤ 3
    · left; omega
    · right
      rw [show (8 : Nat) = 2 ^ 3 from rfl, ← Nat.pow_mul]
      rcases h2 with h2 | h2
      · omega
      · exact Nat.le_trans (Nat.pow_le_pow_right (by decide) (by omega)) h2
  · rw [show (8 : Nat) = 2 ^ 3 from rfl, ← Nat.pow_mul]
    exact Nat.lt_of_lt_of_le h3 (Nat.pow_le_pow_right (by decide) (by omega))

theorem len16_of_len2 (v : Nat) : (numeral 16 v).length = ((numeral 2 v).length + 3) / 4 := by
  obtain ⟨h1, h2, h3⟩ := numeral_bounds 2 (by decide) v
  generalize (numeral 2 v).length = L at h1 h2 h3 ⊢
  apply numeral_length_iff 16 (by decide) v _ (by omega)
  · by_cases hL : L ≤ 4
    · left; omega
    · right
      rw [show (16 : Nat) = 2 ^ 4 from rfl, ← Nat.pow_mul]
      rcases h2 with h2 | h2
      · omega
      · exact Nat.le_trans (Nat.pow_le_pow_right (by decide) (by omega)) h2
  · rw [show (16 : Nat) = 2 ^ 4 from rfl, ← Nat.pow_mul]
    exact Nat.lt_of_lt_of_le h3 (Nat.pow_le_pow_right (by decide) (by omega))

theorem len2_le (bits v : Nat) (hb : 1 ≤ bits) (h : v < 2 ^ bits) : (numeral 2 v).length ≤ bits := by
  obtain ⟨h1, h2, h3⟩ := numeral_bounds 2 (by decide) v
  rcases h2 with h2 | h2
  · omega
  · have := (Nat.pow_lt_pow_iff_right (a := 2) (by decide)).mp (Nat.lt_of_le_of_lt h2 h)
    omega

theorem clz_len (bits v : Nat) (hb : 1 ≤ bits) (h : v < 2 ^ bits) :
    countlZero bits (v ||| 1) = bits - (numeral 2 v).length ∧ (numeral 2 v).length ≤ bits := by
  have := log2_or_one v
  have := len2_le bits v hb h
  unfold countlZero
  omega

end Strf.IntDigits

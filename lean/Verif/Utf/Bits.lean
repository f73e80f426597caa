import Verif.Utf.Model
import Mathlib.Tactic.IntervalCases
/-! # Bit operations of utf.hpp as arithmetic -/
namespace Strf.Utf

theorem and_mask (x n : Nat) : x &&& (2 ^ n - 1) = x % 2 ^ n := Nat.and_two_pow_sub_one_eq_mod x n

theorem and3F (x : Nat) : x &&& 0x3F = x % 64 := and_mask x 6
theorem and1F (x : Nat) : x &&& 0x1F = x % 32 := and_mask x 5
theorem and0F (x : Nat) : x &&& 0x0F = x % 16 := and_mask x 4
theorem andFF (x : Nat) : x &&& 0xFF = x % 256 := and_mask x 8
theorem and07 (x : Nat) : x &&& 0x07 = x % 8 := and_mask x 3
theorem and3FF (x : Nat) : x &&& 0x3FF = x % 1024 := and_mask x 10

theorem shl_or (a b n : Nat) (h : b < 2 ^ n) : (a <<< n) ||| b = a * 2 ^ n + b := by
  rw [← Nat.shiftLeft_add_eq_or_of_lt h, Nat.shiftLeft_eq]

theorem isSurrogate_iff (c : Nat) : isSurrogate c = true ↔ IsSurr c := by
  unfold isSurrogate IsSurr; simp only [beq_iff_eq, Nat.shiftRight_eq_div_pow]; omega
theorem isHigh_iff (c : Nat) : isHigh c = true ↔ 0xD800 ≤ c ∧ c < 0xDC00 := by
  unfold isHigh; simp only [beq_iff_eq, Nat.shiftRight_eq_div_pow]; omega
theorem isLow_iff (c : Nat) : isLow c = true ↔ 0xDC00 ≤ c ∧ c < 0xE000 := by
  unfold isLow; simp only [beq_iff_eq, Nat.shiftRight_eq_div_pow]; omega

theorem forall_byte {P : Nat → Prop} [DecidablePred P] (h : ∀ b : Fin 256, P b.1) {b : Nat} (hb : b < 256) : P b :=
  h ⟨b, hb⟩

theorem isCont_iff {b : Nat} (hb : b < 256) : isCont b = true ↔ 0x80 ≤ b ∧ b < 0xC0 :=
  forall_byte (P := fun b => isCont b = true ↔ 0x80 ≤ b ∧ b < 0xC0) (by decide +kernel) hb
theorem andE0_C0 {b : Nat} (hb : b < 256) : 0xC0 = b &&& 0xE0 ↔ 0xC0 ≤ b ∧ b < 0xE0 :=
  forall_byte (P := fun b => 0xC0 = b &&& 0xE0 ↔ 0xC0 ≤ b ∧ b < 0xE0) (by decide +kernel) hb
theorem andE0_A0 {b : Nat} (hb : b < 256) : b &&& 0xE0 = 0xA0 ↔ 0xA0 ≤ b ∧ b < 0xC0 :=
  forall_byte (P := fun b => b &&& 0xE0 = 0xA0 ↔ 0xA0 ≤ b ∧ b < 0xC0) (by decide +kernel) hb
theorem andF0_E0 {b : Nat} (hb : b < 256) : 0xE0 = b &&& 0xF0 ↔ 0xE0 ≤ b ∧ b < 0xF0 :=
  forall_byte (P := fun b => 0xE0 = b &&& 0xF0 ↔ 0xE0 ≤ b ∧ b < 0xF0) (by decide +kernel) hb
theorem xorF0 {b : Nat} (hb : b < 256) :
    (0xF0 ≤ b → b ^^^ 0xF0 = b - 0xF0) ∧ (b < 0xF0 → 0x10 ≤ b ^^^ 0xF0) :=
  forall_byte (P := fun b => (0xF0 ≤ b → b ^^^ 0xF0 = b - 0xF0) ∧ (b < 0xF0 → 0x10 ≤ b ^^^ 0xF0))
    (by decide +kernel) hb

theorem utf8Decode2_eq (a b : Nat) : utf8Decode2 a b = a % 32 * 64 + b % 64 := by
  unfold utf8Decode2; rw [and1F, and3F, shl_or _ _ 6 (by omega)]; omega
theorem first2of3_eq (a b : Nat) : first2of3 a b = a % 16 * 64 + b % 64 := by
  unfold first2of3; rw [and0F, and3F, shl_or _ _ 6 (by omega)]; omega
theorem e0_eq (a b : Nat) : ((a &&& 0x3F) <<< 6) ||| (b &&& 0x3F) = a % 64 * 64 + b % 64 := by
  rw [and3F, and3F, shl_or _ _ 6 (by omega)]; omega
theorem three_eq (x b : Nat) : (x <<< 6) ||| (b &&& 0x3F) = x * 64 + b % 64 := by
  rw [and3F, shl_or _ _ 6 (by omega)]; omega
theorem first2of4_eq (a b : Nat) : first2of4 a b = (a ^^^ 0xF0) * 64 + b % 64 := by
  unfold first2of4; rw [and3F, shl_or _ _ 6 (by omega)]; omega
theorem last2of4_eq (x a b : Nat) : last2of4 x a b = x * 4096 + a % 64 * 64 + b % 64 := by
  unfold last2of4; rw [Nat.or_assoc, e0_eq, shl_or _ _ 12 (by omega)]; omega
theorem utf8Decode3_eq (a b c : Nat) : utf8Decode3 a b c = a % 16 * 4096 + b % 64 * 64 + c % 64 := by
  unfold utf8Decode3; rw [Nat.or_assoc, e0_eq, and0F, shl_or _ _ 12 (by omega)]; omega
theorem utf8Decode4_eq (a b c d : Nat) :
    utf8Decode4 a b c d = a % 8 * 262144 + b % 64 * 4096 + c % 64 * 64 + d % 64 := by
  unfold utf8Decode4
  rw [Nat.or_assoc, Nat.or_assoc, e0_eq, and07, and3F, shl_or _ _ 12 (by omega), shl_or _ _ 18 (by omega)]; omega
theorem fromPair_eq (a b : Nat) : fromPair a b = 0x10000 + a % 1024 * 1024 + b % 1024 := by
  unfold fromPair; rw [and3FF, and3FF, shl_or _ _ 10 (by omega)]; omega

theorem first2of3Valid_iff (x : Nat) (lax : Bool) :
    first2of3Valid x lax = true ↔ lax = true ∨ ¬ (0x360 ≤ x ∧ x < 0x380) := by
  unfold first2of3Valid; simp only [Bool.or_eq_true, bne_iff_ne, Nat.shiftRight_eq_div_pow]; cases lax <;> simp; omega
theorem first2of4Valid_iff (x : Nat) : first2of4Valid x = true ↔ 0xF < x ∧ x < 0x110 := by
  unfold first2of4Valid; simp

/-- `x &&& m` depends on the low byte only when `m < 256`. -/
theorem and_low (m x : Nat) (hm : m < 256) : m &&& x = m &&& (x % 256) := by
  have : m = m &&& 0xFF := by rw [andFF, Nat.mod_eq_of_lt hm]
  conv_lhs => rw [this, Nat.and_assoc, Nat.and_comm 0xFF x, andFF]

theorem tail_byte (x : Nat) : tr8 (0x80 ||| (0xBF &&& x)) = 0x80 + x % 64 := by
  rw [and_low 0xBF x (by decide)]
  have h : x % 64 = (x % 256) % 64 := by omega
  rw [h]
  exact forall_byte (P := fun b => tr8 (0x80 ||| (0xBF &&& b)) = 0x80 + b % 64) (by decide +kernel)
    (Nat.mod_lt x (by decide))
theorem lead2 (x : Nat) (hx : x < 32) : tr8 (0xC0 ||| (0x1F &&& x)) = 0xC0 + x := by
  interval_cases x <;> decide
theorem lead3 (x : Nat) (hx : x < 16) : tr8 (0xE0 ||| (0x0F &&& x)) = 0xE0 + x := by
  interval_cases x <;> decide
theorem lead4 (x : Nat) (hx : x < 8) : tr8 (0xF0 ||| (0x07 &&& x)) = 0xF0 + x := by
  interval_cases x <;> decide

theorem put2_eq {c : Nat} (h : 0x80 ≤ c) (h' : c < 0x800) : put2 c = encode .utf8 c := by
  unfold put2; simp only [encode]
  rw [if_neg (by omega), if_pos h', tail_byte, lead2 _ (by simp only [Nat.shiftRight_eq_div_pow]; omega)]
  simp only [Nat.shiftRight_eq_div_pow, Nat.reducePow]
theorem put3_eq {c : Nat} (h : 0x800 ≤ c) (h' : c < 0x10000) : put3 c = encode .utf8 c := by
  unfold put3; simp only [encode]
  rw [if_neg (by omega), if_neg (by omega), if_pos h', tail_byte, tail_byte,
    lead3 _ (by simp only [Nat.shiftRight_eq_div_pow]; omega)]
  simp only [Nat.shiftRight_eq_div_pow, Nat.reducePow]
theorem put4_eq {c : Nat} (h : 0x10000 ≤ c) (h' : c < 0x110000) : put4 c = encode .utf8 c := by
  unfold put4; simp only [encode]
  rw [if_neg (by omega), if_neg (by omega), if_neg (by omega), tail_byte, tail_byte, tail_byte,
    lead4 _ (by simp only [Nat.shiftRight_eq_div_pow]; omega)]
  simp only [Nat.shiftRight_eq_div_pow, Nat.reducePow]

/-- `m ||| x = m + x` when the low `n` bits of `m` are clear. -/
theorem or_low (a n x : Nat) (h : x < 2 ^ n) : (a * 2 ^ n) ||| x = a * 2 ^ n + x := by
  rw [← shl_or a x n h, Nat.shiftLeft_eq]

theorem pair_or {c : Nat} (h : 0x10000 ≤ c) (h' : c < 0x110000) :
    [tr16 (0xD800 ||| ((c - 0x10000) >>> 10)), tr16 (0xDC00 ||| ((c - 0x10000) &&& 0x3FF))] = encode .utf16 c := by
  have e1 := or_low 0x36 10 ((c - 0x10000) >>> 10) (by simp only [Nat.shiftRight_eq_div_pow]; omega)
  have e2 := or_low 0x37 10 ((c - 0x10000) &&& 0x3FF) (by rw [and3FF]; omega)
  norm_num at e1 e2
  unfold tr16; simp only [encode]
  rw [if_neg (by omega), e1, e2, and3FF]
  simp only [Nat.shiftRight_eq_div_pow, List.cons.injEq, and_true]
  omega

theorem pair_add {c : Nat} (h : 0x10000 ≤ c) (h' : c < 0x110000) :
    [tr16 (0xD800 + ((c - 0x10000) >>> 10)), tr16 (0xDC00 + ((c - 0x10000) &&& 0x3FF))] = encode .utf16 c := by
  unfold tr16; simp only [encode]
  rw [if_neg (by omega), and3FF]
  simp only [Nat.shiftRight_eq_div_pow, List.cons.injEq, and_true]
  omega

end Strf.Utf

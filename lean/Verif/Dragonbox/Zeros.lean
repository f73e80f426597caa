import Verif.Dragonbox.Wide
import Mathlib.Tactic.Conv
import Mathlib.Tactic.NormNum
/-
Division by a constant power of five by its inverse modulo 2^32 or 2^64, and the removal of trailing zeros.
-/
namespace Strf.Dragonbox
open Strf.Float

/-- `x·inv mod M ≤ (M-1)/d` iff `d ∣ x`, and then it is the quotient, if `inv` is the inverse of `d` modulo `M` -/
theorem inverse_div {M d inv mq x : Nat} (hinv : inv * d % M = 1) (hmq : mq = (M - 1) / d) (hd : 0 < d) (hx : x < M) :
    (x * inv % M ≤ mq ↔ x % d = 0) ∧ (x % d = 0 → x * inv % M = x / d) := by
  have hM : 1 < M := by
    rcases M with _ | _ | M
    · omega
    · simp [Nat.mod_one] at hinv
    · omega
  have hmqM : mq * d ≤ M - 1 := by rw [hmq]; exact Nat.div_mul_le_self _ _
  have back : x % d = 0 → x * inv % M = x / d := by
    intro h
    obtain ⟨q, rfl⟩ := Nat.dvd_of_mod_eq_zero h
    rw [Nat.mul_div_cancel_left _ hd]
    have e : d * q * inv = q * (inv * d) := by ring
    rw [e, Nat.mul_mod, hinv, Nat.mul_one, Nat.mod_mod]
    exact Nat.mod_eq_of_lt (lt_of_le_of_lt (Nat.le_mul_of_pos_left q hd) hx)
  refine ⟨⟨fun h => ?_, fun h => ?_⟩, back⟩
  · have e1 : (x * inv % M) * d % M = x := by
      have : (x * inv % M) * d % M = (x * inv * d) % M := by rw [Nat.mod_mul_mod]
      rw [this, Nat.mul_assoc, Nat.mul_mod, hinv, Nat.mul_one, Nat.mod_mod, Nat.mod_eq_of_lt hx]
    have e2 : (x * inv % M) * d ≤ M - 1 := le_trans (Nat.mul_le_mul_right d h) hmqM
    rw [Nat.mod_eq_of_lt (by omega)] at e1
    rw [← e1]
    exact Nat.mul_mod_left _ _
  · rw [back h, hmq]
    exact Nat.div_le_div_right (by omega)

theorem inv32_table : ∀ i < 11, modInv .float i * 5 ^ i % 2 ^ 32 = 1 ∧ maxQuotients .float i = (2 ^ 32 - 1) / 5 ^ i := by
  decide +kernel
theorem inv64_table : ∀ i < 24, modInv .double i * 5 ^ i % 2 ^ 64 = 1 ∧ maxQuotients .double i = (2 ^ 64 - 1) / 5 ^ i := by
  decide +kernel

/-- the size of the table -/
def tableSize (T : FloatT) : Nat := match T with | .float => 11 | .double => 24

theorem by5_exact {T : FloatT} {x i : Nat} (hx : x < 2 ^ T.bits) (hi : i < tableSize T) :
    divisibleByPowerOf5 T x i = decide (x % 5 ^ i = 0) := by
  unfold divisibleByPowerOf5 cu
  apply decide_eq_decide.mpr
  cases T
  · have h := inv32_table i hi
    exact (inverse_div h.1 h.2 (by positivity) hx).1
  · have h := inv64_table i hi
    exact (inverse_div h.1 h.2 (by positivity) hx).1

theorem tryPow10_eq {n i : Nat} (hn : n < 2 ^ 32) (hi : i < 11) :
    tryPow10 n i = if n % 10 ^ i = 0 then some (n / 10 ^ i) else none := by
  have h := inv32_table i hi
  have hx : n / 2 ^ i < 2 ^ 32 := lt_of_le_of_lt (Nat.div_le_self _ _) hn
  have hd := inverse_div h.1 h.2 (by positivity) hx
  have e10 : 10 ^ i = 2 ^ i * 5 ^ i := by rw [← Nat.mul_pow]
  unfold tryPow10 u32
  by_cases h2 : n % 2 ^ i = 0
  · rw [if_pos h2]
    dsimp only
    have hiff : n / 2 ^ i % 5 ^ i = 0 ↔ n % 10 ^ i = 0 := by
      obtain ⟨q, hq⟩ := Nat.dvd_of_mod_eq_zero h2
      rw [e10, hq, Nat.mul_div_cancel_left _ (by positivity), Nat.mul_mod_mul_left]
      constructor
      · intro e; rw [e, Nat.mul_zero]
      · intro e
        rcases Nat.mul_eq_zero.mp e with e | e
        · exact absurd e (by positivity)
        · exact e
    by_cases h5 : n / 2 ^ i % 5 ^ i = 0
    · rw [if_pos (hd.1.mpr h5), if_pos (hiff.mp h5), hd.2 h5, Nat.div_div_eq_div_mul, e10]
    · rw [if_neg (fun e => h5 (hd.1.mp e)), if_neg (fun e => h5 (hiff.mpr e))]
  · rw [if_neg h2, if_neg]
    intro e
    apply h2
    have : 2 ^ i ∣ n := dvd_trans ⟨5 ^ i, e10⟩ (Nat.dvd_of_mod_eq_zero e)
    exact Nat.mod_eq_zero_of_dvd this

/-- `n·10^s`, `s` in the exponent, with the trailing zeros removed: same number, and not divisible by ten -/
def Stripped (n : Nat) (r : Nat × Nat) : Prop := r.1 * 10 ^ r.2 = n ∧ r.1 % 10 ≠ 0

theorem strip_cases {n i s : Nat} (hn : n < 2 ^ 32) (hi : i < 11) :
    (n % 10 ^ i = 0 ∧ stripPow10 i (n, s) = (n / 10 ^ i, s ||| i)) ∨ (n % 10 ^ i ≠ 0 ∧ stripPow10 i (n, s) = (n, s)) := by
  unfold stripPow10
  rw [tryPow10_eq hn hi]
  by_cases h : n % 10 ^ i = 0
  · left; rw [if_pos h]; exact ⟨h, rfl⟩
  · right; rw [if_neg h]; exact ⟨h, rfl⟩

/-- the search for 4, 2 and 1 zeros -/
theorem strip421 {n s : Nat} (hn : n < 2 ^ 32) (h0 : n % 10 ^ 8 ≠ 0) (hs : s % 8 = 0) (hs2 : s < 16) :
    ∃ t, t < 8 ∧ (stripPow10 1 (stripPow10 2 (stripPow10 4 (n, s)))).2 = s + t ∧
      (stripPow10 1 (stripPow10 2 (stripPow10 4 (n, s)))).1 * 10 ^ t = n ∧
      (stripPow10 1 (stripPow10 2 (stripPow10 4 (n, s)))).1 % 10 ≠ 0 := by
  have hs' : s = 0 ∨ s = 8 := by omega
  rcases strip_cases (i := 4) (s := s) hn (by omega) with ⟨a4, e4⟩ | ⟨a4, e4⟩ <;> rw [e4]
  · rcases strip_cases (n := n / 10 ^ 4) (i := 2) (s := s ||| 4) (by omega) (by omega) with ⟨a2, e2⟩ | ⟨a2, e2⟩ <;> rw [e2]
    · rcases strip_cases (n := n / 10 ^ 4 / 10 ^ 2) (i := 1) (s := s ||| 4 ||| 2) (by omega) (by omega) with ⟨a1, e1⟩ | ⟨a1, e1⟩ <;>
        rw [e1]
      · refine ⟨7, by omega, ?_, ?_, ?_⟩
        · rcases hs' with rfl | rfl <;> rfl
        · dsimp only; omega
        · dsimp only; omega
      · refine ⟨6, by omega, ?_, ?_, ?_⟩
        · rcases hs' with rfl | rfl <;> rfl
        · dsimp only; omega
        · dsimp only; omega
    · rcases strip_cases (n := n / 10 ^ 4) (i := 1) (s := s ||| 4) (by omega) (by omega) with ⟨a1, e1⟩ | ⟨a1, e1⟩ <;>
        rw [e1]
      · refine ⟨5, by omega, ?_, ?_, ?_⟩
        · rcases hs' with rfl | rfl <;> rfl
        · dsimp only; omega
        · dsimp only; omega
      · refine ⟨4, by omega, ?_, ?_, ?_⟩
        · rcases hs' with rfl | rfl <;> rfl
        · dsimp only; omega
        · dsimp only; omega
  · rcases strip_cases (n := n) (i := 2) (s := s) (by omega) (by omega) with ⟨a2, e2⟩ | ⟨a2, e2⟩ <;> rw [e2]
    · rcases strip_cases (n := n / 10 ^ 2) (i := 1) (s := s ||| 2) (by omega) (by omega) with ⟨a1, e1⟩ | ⟨a1, e1⟩ <;>
        rw [e1]
      · refine ⟨3, by omega, ?_, ?_, ?_⟩
        · rcases hs' with rfl | rfl <;> rfl
        · dsimp only; omega
        · dsimp only; omega
      · refine ⟨2, by omega, ?_, ?_, ?_⟩
        · rcases hs' with rfl | rfl <;> rfl
        · dsimp only; omega
        · dsimp only; omega
    · rcases strip_cases (n := n) (i := 1) (s := s) (by omega) (by omega) with ⟨a1, e1⟩ | ⟨a1, e1⟩ <;>
        rw [e1]
      · refine ⟨1, by omega, ?_, ?_, ?_⟩
        · rcases hs' with rfl | rfl <;> rfl
        · dsimp only; omega
        · dsimp only; omega
      · refine ⟨0, by omega, ?_, ?_, ?_⟩
        · rcases hs' with rfl | rfl <;> rfl
        · dsimp only; omega
        · dsimp only; omega

theorem removeZerosFloat_exact {n : Nat} (h0 : 0 < n) (hn : n < 10 ^ 8) : Stripped n (removeZerosFloat n) := by
  obtain ⟨t, _, e2, e3, e4⟩ := strip421 (n := n) (s := 0) (by omega) (by omega) rfl (by omega)
  unfold Stripped removeZerosFloat
  rw [e2, Nat.zero_add]
  exact ⟨e3, e4⟩

/-- the three steps on the remainder -/
theorem rest_exact {r : Nat} (h0 : 0 < r) (hr : r < 10 ^ 8) :
    ∃ t, t < 8 ∧ (rest1 (rest2 (rest4 r))).2.2 = t ∧ (rest1 (rest2 (rest4 r))).1 * 10 ^ t = r ∧
      (rest1 (rest2 (rest4 r))).1 % 10 ≠ 0 ∧ (rest1 (rest2 (rest4 r))).2.1 = 10 ^ (8 - t) := by
  unfold rest4
  rw [tryPow10_eq (by omega) (by omega)]
  by_cases a4 : r % 10 ^ 4 = 0
  · rw [if_pos a4]
    unfold rest2
    dsimp only
    rw [tryPow10_eq (by omega) (by omega)]
    by_cases a2 : r / 10 ^ 4 % 10 ^ 2 = 0
    · rw [if_pos a2]
      unfold rest1
      dsimp only
      rw [tryPow10_eq (by omega) (by omega)]
      by_cases a1 : r / 10 ^ 4 / 10 ^ 2 % 10 ^ 1 = 0
      · rw [if_pos a1]; dsimp only
        exact ⟨7, by omega, rfl, by omega, by omega, by simp [u32, modInv, modInv32]⟩
      · rw [if_neg a1]; dsimp only
        exact ⟨6, by omega, rfl, by omega, by omega, by simp [u32, modInv, modInv32]⟩
    · rw [if_neg a2]
      unfold rest1
      dsimp only
      rw [tryPow10_eq (by omega) (by omega)]
      by_cases a1 : r / 10 ^ 4 % 10 ^ 1 = 0
      · rw [if_pos a1]; dsimp only
        exact ⟨5, by omega, rfl, by omega, by omega, by simp [u32, modInv, modInv32]⟩
      · rw [if_neg a1]; dsimp only
        exact ⟨4, by omega, rfl, by omega, by omega, by simp [u32, modInv, modInv32]⟩
  · rw [if_neg a4]
    unfold rest2
    dsimp only
    rw [tryPow10_eq (by omega) (by omega)]
    by_cases a2 : r % 10 ^ 2 = 0
    · rw [if_pos a2]
      unfold rest1
      dsimp only
      rw [tryPow10_eq (by omega) (by omega)]
      by_cases a1 : r / 10 ^ 2 % 10 ^ 1 = 0
      · rw [if_pos a1]; dsimp only
        exact ⟨3, by omega, rfl, by omega, by omega, by simp [u32, modInv, modInv32]⟩
      · rw [if_neg a1]; dsimp only
        exact ⟨2, by omega, rfl, by omega, by omega, by simp [u32, modInv, modInv32]⟩
    · rw [if_neg a2]
      unfold rest1
      dsimp only
      rw [tryPow10_eq (by omega) (by omega)]
      by_cases a1 : r % 10 ^ 1 = 0
      · rw [if_pos a1]; dsimp only
        exact ⟨1, by omega, rfl, by omega, by omega, by simp [u32, modInv, modInv32]⟩
      · rw [if_neg a1]; dsimp only
        exact ⟨0, by omega, rfl, by omega, by omega, by simp [u32, modInv, modInv32]⟩

theorem removeZerosDouble_exact {n : Nat} (h0 : 0 < n) (hn : n < 10 ^ 17) : Stripped n (removeZerosDouble n) := by
  unfold removeZerosDouble
  dsimp only
  have hq : u32 (n / 100000000) = n / 10 ^ 8 := by unfold u32; omega
  have hr : u32 (sub64 n (u32 (100000000 * u32 (n / 100000000)))) = n % 10 ^ 8 := by
    rw [hq]; unfold u32 sub64; omega
  rw [hr, hq]
  by_cases hz : n % 10 ^ 8 = 0
  · rw [if_pos hz]
    have hq9 : n / 10 ^ 8 < 10 ^ 9 := by omega
    rw [tryPow10_eq (by omega) (by omega)]
    by_cases h8 : n / 10 ^ 8 % 10 ^ 8 = 0
    · rw [if_pos h8]
      unfold Stripped
      dsimp only
      omega
    · rw [if_neg h8]
      dsimp only
      obtain ⟨t, _, e2, e3, e4⟩ := strip421 (n := n / 10 ^ 8) (s := 8) (by omega) h8 rfl (by omega)
      refine ⟨?_, e4⟩
      rw [e2, Nat.pow_add, Nat.mul_comm (10 ^ 8), ← Nat.mul_assoc, e3]
      omega
  · rw [if_neg hz]
    obtain ⟨t, ht, e1, e2, e3, e4⟩ := rest_exact (r := n % 10 ^ 8) (by omega) (by omega)
    unfold Stripped
    dsimp only
    rw [e1, e4]
    have hp : (10 ^ (8 - t) : Nat) ≤ 10 ^ 8 := Nat.pow_le_pow_right (by norm_num) (by omega)
    have hpp : 10 ^ (8 - t) * 10 ^ t = (10 ^ 8 : Nat) := by rw [← Nat.pow_add]; congr 1; omega
    have hmul : n / 10 ^ 8 * 10 ^ (8 - t) ≤ 10 ^ 9 * 10 ^ 8 := Nat.mul_le_mul (by omega) hp
    have hu : u64 (n / 10 ^ 8 * 10 ^ (8 - t)) = n / 10 ^ 8 * 10 ^ (8 - t) := by
      unfold u64; exact Nat.mod_eq_of_lt (by omega)
    have hx : (rest1 (rest2 (rest4 (n % 10 ^ 8)))).1 ≤ n % 10 ^ 8 := by
      conv_rhs => rw [← e2]
      exact Nat.le_mul_of_pos_right _ (by positivity)
    have hu2 : u64 ((rest1 (rest2 (rest4 (n % 10 ^ 8)))).1 + n / 10 ^ 8 * 10 ^ (8 - t)) =
        (rest1 (rest2 (rest4 (n % 10 ^ 8)))).1 + n / 10 ^ 8 * 10 ^ (8 - t) := by
      unfold u64; exact Nat.mod_eq_of_lt (by omega)
    rw [hu, hu2]
    constructor
    · rw [Nat.add_mul, e2, Nat.mul_assoc, hpp]
      omega
    · obtain ⟨j, hj⟩ : ∃ j, 8 - t = j + 1 := ⟨7 - t, by omega⟩
      rw [hj, show (10 : Nat) ^ (j + 1) = 10 ^ j * 10 from Nat.pow_succ _ _, ← Nat.mul_assoc]
      generalize n / 10 ^ 8 * 10 ^ j = w
      generalize (rest1 (rest2 (rest4 (n % 10 ^ 8)))).1 = x at *
      omega

/-- the bound on the significand before the trailing zeros are removed -/
def maxSignificand (T : FloatT) : Nat := match T with | .float => 10 ^ 8 | .double => 10 ^ 17

theorem removeZeros_exact {T : FloatT} {n : Nat} (h0 : 0 < n) (hn : n < maxSignificand T) : Stripped n (removeZeros T n) := by
  cases T
  · exact removeZerosFloat_exact h0 hn
  · exact removeZerosDouble_exact h0 hn

/-- the division by 10^kappa of small numbers -/
theorem checkDiv_table (T : FloatT) : ∀ n ≤ 10 ^ (kappa T + 1),
    checkDivisibility T n = (decide (n % 10 ^ kappa T = 0), n / 10 ^ kappa T) := by
  cases T <;> decide +kernel

theorem divideByBig_exact {T : FloatT} {n : Nat} (hn : n < 2 ^ T.bits) (hn2 : n < 10 ^ 19) :
    divideByBig T n = n / 10 ^ (kappa T + 1) := by
  cases T
  · rfl
  · unfold divideByBig
    dsimp only
    rw [umul128Upper64_exact hn (by norm_num), kappa]
    omega

theorem countrZero_le (fuel n : Nat) : n % 2 ^ countrZero fuel n = 0 := by
  induction fuel generalizing n with
  | zero => simp [countrZero, Nat.mod_one]
  | succ f ih =>
    unfold countrZero
    split
    · rename_i h
      have := ih (n / 2)
      obtain ⟨q, hq⟩ := Nat.dvd_of_mod_eq_zero this
      have : n = 2 ^ (countrZero f (n / 2) + 1) * q := by
        have e : 2 ^ (countrZero f (n / 2) + 1) * q = 2 * (2 ^ countrZero f (n / 2) * q) := by rw [Nat.pow_succ]; ring
        rw [e, ← hq]; omega
      exact Nat.mod_eq_zero_of_dvd ⟨q, this⟩
    · simp [Nat.mod_one]

theorem countrZero_max {fuel n e : Nat} (h0 : 0 < n) (hn : n < 2 ^ fuel) (h : n % 2 ^ e = 0) : e ≤ countrZero fuel n := by
  induction fuel generalizing n e with
  | zero => omega
  | succ f ih =>
    rcases e with _ | e
    · omega
    · have h2 : n % 2 = 0 := by
        have : 2 ∣ n := dvd_trans ⟨2 ^ e, by rw [Nat.pow_succ, Nat.mul_comm]⟩ (Nat.dvd_of_mod_eq_zero h)
        omega
      unfold countrZero
      rw [if_pos h2]
      have := ih (n := n / 2) (e := e) (by omega) (by rw [Nat.pow_succ] at hn; omega) (by
        obtain ⟨q, hq⟩ := Nat.dvd_of_mod_eq_zero h
        have : n / 2 = 2 ^ e * q := by rw [hq, Nat.pow_succ, Nat.mul_right_comm]; exact Nat.mul_div_cancel _ (by norm_num)
        exact Nat.mod_eq_zero_of_dvd ⟨q, this⟩)
      omega

theorem by2_exact {T : FloatT} {x e : Nat} (h0 : 0 < x) (hx : x < 2 ^ T.bits) :
    divisibleByPowerOf2 T x e = decide (x % 2 ^ e = 0) := by
  unfold divisibleByPowerOf2
  apply decide_eq_decide.mpr
  constructor
  · intro h
    have h' : e ≤ countrZero T.bits x := by omega
    have hd : 2 ^ e ∣ 2 ^ countrZero T.bits x := Nat.pow_dvd_pow _ h'
    exact Nat.mod_eq_zero_of_dvd (dvd_trans hd (Nat.dvd_of_mod_eq_zero (countrZero_le _ _)))
  · intro h
    have := countrZero_max h0 hx h
    omega

end Strf.Dragonbox

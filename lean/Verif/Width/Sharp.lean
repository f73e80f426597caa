import Verif.Width.Props
/-!
# Where exactly the arithmetic of widths is right

The theorems `_partial` of C33, C35 and C36 say that the functions are right under some conditions; here: and only then.
-/
namespace Strf.Width
open Strf.CInt Strf.WidthSpec

/-- C35: comparing with a 16-bit integer is right if and only if the exact difference is a value of `int` (otherwise it is undefined behaviour), or, for unsigned ones, if no
width reaches the integer. -/
theorem compare16_exact_iff (v x : Int) (hv : InI32 v) :
    (InI16 x → ((∃ r, compareI16 v x = some r ∧ SignOf r v (x * 65536)) ↔ InI32 (v - x * 65536))) ∧
    (InU16 x → ((∃ r, compareU16 v x = some r ∧ SignOf r v (x * 65536)) ↔ 32768 ≤ x ∨ InI32 (v - x * 65536))) := by
  refine ⟨fun hx => ⟨fun ⟨r, e, _⟩ => ?_, fun h => (compare16_exact_partial v x hv h).1 hx⟩, fun hx => ⟨fun ⟨r, e, _⟩ => ?_, fun h => ?_⟩⟩
  · unfold InI16 at hx
    have e' : i32 (u32 (u32 (u16 x) * 65536)) = x * 65536 := by unfold i32 u32 u16; omega
    unfold compareI16 chk32 at e
    rw [e'] at e
    split at e
    · assumption
    · cases e
  · unfold InU16 at hx
    by_cases hb : x ≥ 32768
    · exact .inl hb
    · right
      have e' : i32 (u32 (u32 x * 65536)) = x * 65536 := by unfold i32 u32; omega
      unfold compareU16 chk32 at e
      rw [if_neg hb, e'] at e
      split at e
      · assumption
      · cases e
  · rcases h with hb | h
    · unfold InI32 at hv
      exact ⟨-1, by unfold compareU16; rw [if_pos hb], by unfold SignOf; omega⟩
    · exact (compare16_exact_partial v x hv h).2 hx

theorem truncQuot_unique {a b q r : Int} (hb : b ≠ 0) (hq : IsTruncQuot a b q) (hr : IsTruncQuot a b r) : q = r := by
  unfold IsTruncQuot at hq hr
  obtain ⟨q1, q2, q3⟩ := hq
  obtain ⟨r1, r2, r3⟩ := hr
  have hb' : 0 < b.natAbs := Int.natAbs_pos.mpr hb
  have e : q.natAbs = r.natAbs := by
    have h1 := Nat.div_eq_of_lt_le q1 q2
    have h2 := Nat.div_eq_of_lt_le r1 r2
    omega
  rcases Int.natAbs_eq_natAbs_iff.mp e with h | h
  · exact h
  · subst h
    have hz : r * (a * b) = 0 := by rw [Int.neg_mul] at q3; omega
    rcases Int.mul_eq_zero.mp hz with h0 | h0
    · omega
    · rcases Int.mul_eq_zero.mp h0 with h0 | h0
      · subst h0
        have : r.natAbs * b.natAbs = 0 := by simpa using r1
        rcases Nat.mul_eq_zero.mp this with h | h <;> omega
      · exact absurd h0 hb

theorem i32_eq_iff (a q : Int) : i32 a = q ↔ InI32 q ∧ (a - q) % 4294967296 = 0 := by
  unfold i32 InI32; omega

/-- the quotients of N - 2^48 and of N agree as 32-bit integers if and only if the divisor divides 65536 -/
theorem wrapped_quotient {n n' m : Nat} (hs : n + n' = 2 ^ 48) (hn : 65536 ∣ n) (hm : 0 < m) (hm' : m ≤ 2147483648) :
    (n' / m + n / m) % 4294967296 = 0 ↔ m ∣ 65536 := by
  have h1 := Nat.div_add_mod n m
  have h2 := Nat.div_add_mod n' m
  have l1 := Nat.mod_lt n hm
  have l2 := Nat.mod_lt n' hm
  constructor
  · intro h
    obtain ⟨k, hk⟩ := Nat.dvd_of_mod_eq_zero h
    have e : m * (4294967296 * k) + (n % m + n' % m) = 2 ^ 48 := by
      rw [← hk, Nat.mul_add]; omega
    refine ⟨k, ?_⟩
    have e2 : m * (4294967296 * k) = 4294967296 * (m * k) := by ring
    rw [e2] at e
    omega
  · rintro ⟨d, hd⟩
    have d1 : m ∣ n := Dvd.dvd.trans ⟨d, hd⟩ hn
    have d2 : m ∣ n' := by
      have : m ∣ 2 ^ 48 := Dvd.dvd.trans ⟨d, hd⟩ (by decide)
      rw [← hs] at this
      exact (Nat.dvd_add_right d1).mp this
    have z1 := Nat.mod_eq_zero_of_dvd d1
    have z2 := Nat.mod_eq_zero_of_dvd d2
    have : m * (n' / m + n / m) = m * (4294967296 * d) := by
      rw [Nat.mul_add, show m * (4294967296 * d) = 4294967296 * (m * d) by ring, ← hd]; omega
    rw [Nat.eq_of_mul_eq_mul_left hm this]
    omega

/-- C35: `operator/` gives the exact quotient, truncated, if and only if a width can hold it, and the dividend is not negative or the divisor is, but for the sign, a
power of two between 1/65536 and 1. -/
theorem div_exact_iff (v w : Int) (hv : InI32 v) (hw : InI32 w) :
    (∃ r, div v w = some r ∧ IsTruncQuot (v * 65536) w r) ↔
      w ≠ 0 ∧ InI32 (Int.tdiv (v * 65536) w) ∧ (0 ≤ v ∨ w.natAbs ∣ 65536) := by
  by_cases hw0 : w = 0
  · subst hw0; simp [div]
  have key : (∃ r, div v w = some r ∧ IsTruncQuot (v * 65536) w r) ↔ div v w = some (Int.tdiv (v * 65536) w) := by
    constructor
    · rintro ⟨r, e, h⟩
      rw [e, truncQuot_unique hw0 h (tdiv_isTruncQuot _ _ hw0)]
    · exact fun e => ⟨_, e, tdiv_isTruncQuot _ _ hw0⟩
  rw [key]
  simp only [hw0, ne_eq, not_false_eq_true, true_and]
  unfold InI32 at hv hw
  have bound : ∀ a : Int, -281474976710656 ≤ a → a ≤ 281474976710656 → chk64 (Int.tdiv a w) = some (Int.tdiv a w) := by
    intro a h1 h2
    have hq : (Int.tdiv a w).natAbs ≤ a.natAbs := by rw [Int.natAbs_tdiv]; exact Nat.div_le_self _ _
    simp [chk64]; omega
  by_cases hv0 : 0 ≤ v
  · have e : i64 (u64 (u32 v * 65536)) = v * 65536 := by unfold i64 u64 u32; omega
    unfold div
    rw [if_neg hw0, e, bound _ (by omega) (by omega), Option.map_some, Option.some.injEq, i32_eq_iff]
    simp [hv0]
  · have e : i64 (u64 (u32 v * 65536)) = v * 65536 + 281474976710656 := by unfold i64 u64 u32; omega
    unfold div
    rw [if_neg hw0, e, bound _ (by omega) (by omega), Option.map_some, Option.some.injEq, i32_eq_iff]
    simp only [hv0, false_or]
    apply and_congr_right
    intro hq
    obtain ⟨n, hn⟩ : ∃ n : Nat, v * 65536 = -(n : Int) := ⟨(-(v * 65536)).toNat, by omega⟩
    obtain ⟨n', hn'⟩ : ∃ n' : Nat, v * 65536 + 281474976710656 = (n' : Int) := ⟨(v * 65536 + 281474976710656).toNat, by omega⟩
    have hs : n + n' = 2 ^ 48 := by omega
    have hd : 65536 ∣ n := by omega
    rw [← wrapped_quotient hs hd (Int.natAbs_pos.mpr hw0) (by omega), hn', hn, Int.neg_tdiv]
    rcases Int.natAbs_eq w with hw' | hw'
    · rw [hw']
      generalize w.natAbs = m
      rw [← Int.ofNat_tdiv, ← Int.ofNat_tdiv, Int.natAbs_natCast]
      omega
    · rw [hw']
      generalize w.natAbs = m
      rw [Int.tdiv_neg, Int.tdiv_neg, ← Int.ofNat_tdiv, ← Int.ofNat_tdiv, Int.natAbs_neg, Int.natAbs_natCast]
      omega


/-! ### literals -/

theorem nearestEven_bound {p q r : Nat} (h : IsNearestEven p q r) : 2 * (Int.natAbs ((p : Int) - r * q)) ≤ q := by
  unfold IsNearestEven at h; omega

theorem nearestEven_unique {p q r s : Nat} (hq : 0 < q) (hr : IsNearestEven p q r) (hs : IsNearestEven p q s) : r = s := by
  have main : ∀ {r s : Nat}, IsNearestEven p q r → IsNearestEven p q s → r < s → False := by
    intro r s hr hs hlt
    unfold IsNearestEven at hr hs
    have e : (s : Int) * q = r * q + (s - r : Nat) * q := by rw [← Int.add_mul]; congr 1; omega
    by_cases h1 : s = r + 1
    · subst h1
      have : ((r + 1 - r : Nat) : Int) * q = q := by rw [show r + 1 - r = 1 by omega]; simp
      rw [this] at e
      omega
    · have h2 : (2 : Int) * q ≤ ((s - r : Nat) : Int) * q := Int.mul_le_mul_of_nonneg_right (by omega) (by omega)
      omega
  rcases Nat.lt_trichotomy r s with h | h | h
  · exact (main hr hs h).elim
  · exact h
  · exact (main hs hr h).elim

/-- C36: a literal with at most 16 fractional digits is the nearest multiple of 1/65536 (ties to even) if and only if that is a width and the fractional digits, as an
integer, are less than 2^48. -/
theorem literal_exact_iff (is fs : List Nat) (hd : ∀ d ∈ fs, d < 10) (hl : fs.length ≤ 16) (r : Nat)
    (hr : IsNearestEven (decNat (is ++ fs) * 65536) (10 ^ fs.length) r) :
    literal is fs = some (r : Int) ↔ (r : Int) ≤ wmax ∧ decNat fs < 2 ^ 48 := by
  rw [decNat_append] at hr
  have hf := decNat_lt fs hd
  have hpow : 10 ^ fs.length ≤ 10 ^ 16 := Nat.pow_le_pow_right (by decide) hl
  have hpos : 0 < 10 ^ fs.length := Nat.pow_pos (by decide)
  have heven : 10 ^ fs.length % 2 = 0 ∨ 10 ^ fs.length = 1 := by
    rcases Nat.eq_zero_or_pos fs.length with h | h
    · right; simp [h]
    · left
      obtain ⟨k, hk⟩ := Nat.exists_eq_succ_of_ne_zero (Nat.pos_iff_ne_zero.mp h)
      rw [hk, pow_succ]; omega
  obtain ⟨hi1, _⟩ := intDigits_eq is
  obtain ⟨hf1, hf2⟩ := fracDigits_eq 16 fs hl hd
  have hzero : 10 ^ fs.length = 1 → decNat fs = 0 := by intro h; omega
  generalize decNat is = I at *
  generalize decNat fs = F at *
  obtain ⟨D, hD⟩ : ∃ D, D = 10 ^ fs.length := ⟨_, rfl⟩
  rw [← hD] at hf hpow hpos heven hzero hr
  have near := fun X : Nat => nearestEven_of X D hpos heven
  obtain ⟨c', hc'⟩ : ∃ c', c' = F % 2 ^ 48 * 65536 / D +
      if ((F % 2 ^ 48 * 65536) % D > D / 2 || ((F % 2 ^ 48 * 65536) % D == D / 2 && (F % 2 ^ 48 * 65536) / D % 2 == 1)) && D != 1
      then 1 else 0 := ⟨_, rfl⟩
  have n' := near (F % 2 ^ 48 * 65536)
  rw [← hc'] at n'
  obtain ⟨c, hc⟩ : ∃ c, IsNearestEven (F * 65536) D c := ⟨_, near (F * 65536)⟩
  have hlit : literalAbs is fs = (I % 2 ^ 64 * 65536 % 2 ^ 64 + c') % 2 ^ 64 := by
    unfold literalAbs
    simp only [hf1, hf2, hi1]
    rw [← hD]
    have e1 : D % 2^64 = D := Nat.mod_eq_of_lt (by omega)
    have e4 : F % 2 ^ 64 * 65536 % 2^64 = F % 2 ^ 48 * 65536 := by omega
    rw [e1, e4]
    by_cases h1 : D = 1
    · have := hzero h1
      subst this; subst h1
      simp at hc'
      subst hc'
      simp
    · have hb : (D != 1) = true := by simp [h1]
      rw [hb, Bool.and_true] at hc'
      rw [← hc']
  have hrc : r = I * 65536 + c := by
    refine nearestEven_unique hpos hr ?_
    clear hlit n' near hc' hr hf1 hi1
    unfold IsNearestEven at *
    have e : (((I * D + F) * 65536 : Nat) : Int) - ((I * 65536 + c : Nat) : Int) * (D : Int)
        = ((F * 65536 : Nat) : Int) - (c : Int) * D := by push_cast; ring
    rw [e]; omega
  have b1 := nearestEven_bound hc
  have b2 := nearestEven_bound n'
  have hc1 : c' ≤ 65537 := by
    have hq : F % 2 ^ 48 * 65536 / D ≤ 65536 := by
      apply Nat.le_of_lt_succ; rw [Nat.div_lt_iff_lt_mul hpos]
      have : F % 2 ^ 48 ≤ F := Nat.mod_le _ _
      nlinarith
    rw [hc']; split <;> omega
  unfold literal wmax
  simp only [hlit]
  constructor
  · intro h
    split at h
    · rename_i ha
      have hi := Option.some.inj h
      have hrw : (r : Int) ≤ 2147483647 := by rw [← hi]; unfold i32; omega
      refine ⟨hrw, ?_⟩
      have : c' = c := by unfold i32 at hi; omega
      subst this
      by_contra hcon
      have hge : (F : Int) - (F % 2 ^ 48 : Nat) ≥ 2 ^ 48 := by omega
      push_cast at b1 b2
      omega
    · cases h
  · rintro ⟨hrw, hF⟩
    have hF' : F % 2 ^ 48 = F := Nat.mod_eq_of_lt hF
    rw [hF'] at n'
    have : c' = c := nearestEven_unique hpos n' hc
    subst this
    have e : (I % 2 ^ 64 * 65536 % 2 ^ 64 + c') % 2 ^ 64 = r := by omega
    rw [e, if_pos (by omega), Option.some.injEq]
    unfold i32; omega

/-! ### cases -/

/-- what the code gets right beyond the obvious, and what it does not -/
example : div (-3 * 65536) 32768 = some (-6 * 65536) ∧ div (-3 * 65536) 65536 = some (-3 * 65536) ∧ div (-3 * 65536) (3 * 65536) ≠ some (-65536) := by decide
example : satSubI64 5 (2 ^ 47 - 1) = some wmin ∧ satSubI64 (-65537) (2 ^ 47 - 1) = none := by decide
/-- 0.123456789012345: 15 digits, less than 2^48 -/
example : literal [0] [1,2,3,4,5,6,7,8,9,0,1,2,3,4,5] = some 8091 := by decide +kernel

end Strf.Width

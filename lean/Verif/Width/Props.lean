import Verif.Width.Model
import Verif.Width.Spec
import Mathlib.Tactic.Linarith
import Mathlib.Tactic.Ring
/-
C33 saturating arithmetic, C34 rounding, C35 comparison and division, C36 literals of `strf::width_t`.
-/
namespace Strf.Width
open Strf.CInt Strf.WidthSpec

/-! ### helper facts -/

theorem clamp_sat (x : Int) : sat x = clamp x := by
  unfold sat clamp wmax wmin i32; split <;> (try split) <;> omega

theorem mul_bounds {v w : Int} (hv : InI32 v) (hw : InI32 w) :
    -4611686018427387904 ≤ v * w ∧ v * w ≤ 4611686018427387904 := by
  obtain ⟨a, b⟩ := hv; obtain ⟨c, d⟩ := hw
  constructor <;> nlinarith

/-! ### C33 -/

/-- C33: `sat_add(width, width)` is the exact sum clamped to the range of widths. -/
theorem satAdd_exact (v w : Int) (hv : InI32 v) (hw : InI32 w) : satAdd v w = some (clamp (v + w)) := by
  unfold InI32 at *
  simp [satAdd, chk64, clamp_sat]; omega

/-- C33: `sat_add(width, int16_t)`. -/
theorem satAddI16_exact (v x : Int) (hv : InI32 v) (hx : InI16 x) :
    satAddI16 v x = some (clamp (v + x * 65536)) := by
  unfold InI32 InI16 at *
  have e : i64 (u64 (u64 x * 65536)) = x * 65536 := by unfold i64 u64; omega
  simp [satAddI16, satAddI32, chk64, clamp_sat, e]; omega

/-- C33: `sat_add(width, int32_t)`. -/
theorem satAddI32_exact (v x : Int) (hv : InI32 v) (hx : InI32 x) :
    satAddI32 v x = some (clamp (v + x * 65536)) := by
  unfold InI32 at *
  have e : i64 (u64 (u64 x * 65536)) = x * 65536 := by unfold i64 u64; omega
  simp [satAddI32, chk64, clamp_sat, e]; omega

/-- C33: `sat_add(width, int64_t)`. -/
theorem satAddI64_exact (v x : Int) (hv : InI32 v) (hx : InI64 x) :
    satAddI64 v x = some (clamp (v + x * 65536)) := by
  unfold InI32 InI64 at *
  unfold satAddI64
  split
  · simp [clamp, wmax]; omega
  · split
    · simp [clamp, wmin]; omega
    · have e : i64 (u64 (u64 x * 65536)) = x * 65536 := by unfold i64 u64; omega
      simp [chk64, clamp_sat, e]; omega

/-- C33: `sat_sub(width, width)`. -/
theorem satSub_exact (v w : Int) (hv : InI32 v) (hw : InI32 w) : satSub v w = some (clamp (v - w)) := by
  unfold InI32 at *
  simp [satSub, chk64, clamp_sat]; omega

/-- C33: `sat_sub(width, int16_t)`. -/
theorem satSubI16_exact (v x : Int) (hv : InI32 v) (hx : InI16 x) :
    satSubI16 v x = some (clamp (v - x * 65536)) := by
  unfold InI32 InI16 at *
  have e : i64 (u64 (u64 x * 65536)) = x * 65536 := by unfold i64 u64; omega
  simp [satSubI16, satSubI32, chk64, clamp_sat, e]; omega

/-- C33: `sat_sub(width, int32_t)`. -/
theorem satSubI32_exact (v x : Int) (hv : InI32 v) (hx : InI32 x) :
    satSubI32 v x = some (clamp (v - x * 65536)) := by
  unfold InI32 at *
  have e : i64 (u64 (u64 x * 65536)) = x * 65536 := by unfold i64 u64; omega
  simp [satSubI32, chk64, clamp_sat, e]; omega

/-- C33: `sat_sub(width, int64_t)` is exact if and only if the integer reaches the thresholds of the code, or times 65536 is a 64-bit integer, and so is the difference. -/
theorem satSubI64_exact_iff (v x : Int) (hv : InI32 v) (hx : InI64 x) :
    satSubI64 v x = some (clamp (v - x * 65536)) ↔
      x ≥ wmax * 131072 ∨ x ≤ wmin * 131072 ∨ (InI64 (x * 65536) ∧ InI64 (v - x * 65536)) := by
  unfold InI32 InI64 at *
  have e0 : i64 (u64 (u64 wmin * 131072)) = wmin * 131072 := by unfold i64 u64 wmin; omega
  unfold satSubI64
  rw [e0]
  unfold wmax wmin at *
  split
  · simp [clamp]; omega
  · split
    · simp [clamp]; omega
    · by_cases h : -9223372036854775808 ≤ x * 65536 ∧ x * 65536 ≤ 9223372036854775807
      · have e : i64 (u64 (u64 x * 65536)) = x * 65536 := by unfold i64 u64; omega
        rw [e]
        unfold chk64
        split
        · simp [clamp_sat]; omega
        · simp; omega
      · have e : i64 (u64 (u64 x * 65536)) = x * 65536 - 2 ^ 64 ∧ 0 < x ∨ i64 (u64 (u64 x * 65536)) = x * 65536 + 2 ^ 64 ∧ x < 0 := by unfold i64 u64; omega
        unfold chk64
        split
        · simp only [clamp_sat, Option.map_some, Option.some.injEq, clamp, wmax, wmin]
          omega
        · simp; omega

/-- C33 (part): `sat_sub(width, int64_t)` is exact for those integers. Missing: the others, for which the code is wrong (`satSubI64_exact_iff`,
`satSubI64_wrong`, `satSubI64_undefined`). -/
theorem satSubI64_exact_partial (v x : Int) (hv : InI32 v) (hx : InI64 x)
    (h : x ≥ wmax * 131072 ∨ x ≤ wmin * 131072 ∨ (InI64 (x * 65536) ∧ InI64 (v - x * 65536))) :
    satSubI64 v x = some (clamp (v - x * 65536)) := (satSubI64_exact_iff v x hv hx).mpr h

/-- C33 is false of `sat_sub(width, int64_t)`: subtracting 3·2^46 columns from 0 gives the maximum width
instead of the minimum. -/
theorem satSubI64_wrong : InI32 0 ∧ InI64 (3 * 2^46) ∧ satSubI64 0 (3 * 2^46) = some wmax ∧
    clamp (0 - 3 * 2^46 * 65536) = wmin := by
  refine ⟨?_, ?_, ?_, ?_⟩ <;> decide

/-- C33 is false of `sat_sub(width, int64_t)`: with 2^47 the subtraction overflows `int64_t`. -/
theorem satSubI64_undefined : InI32 0 ∧ InI64 (2^47) ∧ satSubI64 0 (2^47) = none := by
  refine ⟨?_, ?_, ?_⟩ <;> decide

/-- C33: `sat_mul(width, width)` is the exact product, truncated toward zero to 1/65536, clamped. -/
theorem satMul_exact (v w : Int) (hv : InI32 v) (hw : InI32 w) :
    satMul v w = some (clamp (Int.tdiv (v * w) 65536)) := by
  have hb := mul_bounds hv hw
  unfold satMul
  generalize v * w = p at *
  have e0 : i64 (u64 (u64 wmin * 65536)) = wmin * 65536 := by unfold i64 u64 wmin; omega
  rw [e0]
  have hc : chk64 p = some p := by simp [chk64]; omega
  rw [hc, Option.map_some]
  unfold clamp wmin i32
  have ht : Int.tdiv p 65536 = if 0 ≤ p then p / 65536 else -((-p) / 65536) := by
    split
    · rw [Int.tdiv_eq_ediv_of_nonneg (by assumption)]
    · rw [← Int.neg_neg p, Int.neg_tdiv, Int.tdiv_eq_ediv_of_nonneg (by omega)]; simp
  rw [ht]
  split <;> (try split) <;> (try split) <;> simp <;> omega

/-- C33: `sat_mul(width, int16_t)` is the exact product clamped. -/
theorem satMulI16_exact (v x : Int) (hv : InI32 v) (hx : InI16 x) :
    satMulI16 v x = some (clamp (v * x)) := by
  have e : ofI16 x = x * 65536 := by unfold InI16 at hx; unfold ofI16 i32 u32 u16; omega
  have hw : InI32 (x * 65536) := by unfold InI16 at hx; unfold InI32; omega
  rw [satMulI16, e, satMul_exact v _ hv hw, ← Int.mul_assoc, Int.mul_tdiv_cancel _ (by decide)]

theorem mul_sign {v x : Int} (hv : v ≠ 0) (hx : x.natAbs ≥ 2147483648) :
    (xor (v < 0 : Bool) (x < 0 : Bool) = true → v * x ≤ -2147483648) ∧
    (xor (v < 0 : Bool) (x < 0 : Bool) = false → v * x ≥ 2147483648) := by
  constructor <;> intro h <;> simp at h <;> rcases Int.lt_or_lt_of_ne hv with h0 | h0
  · have : 0 ≤ x := by omega
    nlinarith [show x ≥ 2147483648 by omega]
  · have : x < 0 := by omega
    nlinarith [show x ≤ -2147483648 by omega]
  · have : x < 0 := by omega
    nlinarith [show x ≤ -2147483648 by omega]
  · have : 0 ≤ x := by omega
    nlinarith [show x ≥ 2147483648 by omega]

theorem mul_sign' {v x : Int} :
    (xor (v < 0 : Bool) (x < 0 : Bool) = true → v * x ≤ 0) ∧
    (xor (v < 0 : Bool) (x < 0 : Bool) = false → v * x ≥ 0) := by
  constructor <;> intro h <;> simp at h <;> rcases Int.lt_or_le v 0 with h0 | h0 <;>
    rcases Int.lt_or_le x 0 with h1 | h1 <;> first | nlinarith | omega

/-- C33: `sat_mul(width, int32_t)`. -/
theorem satMulI32_exact (v x : Int) (hv : InI32 v) (hx : InI32 x) :
    satMulI32 v x = some (clamp (v * x)) := by
  have hb := mul_bounds hv hx
  have hs := @mul_sign' v x
  unfold satMulI32
  rw [Int.mul_comm x v]
  generalize v * x = p at *
  have hc : chk64 p = some p := by simp [chk64]; omega
  rw [hc, Option.map_some]
  congr 1
  unfold wmin wmax clamp i32
  split
  · omega
  · split
    · have := hs.1 (by assumption); omega
    · have := hs.2 (by simp_all); omega

/-- C33: `sat_mul(width, uint32_t)`. -/
theorem satMulU32_exact (v x : Int) (hv : InI32 v) (hx : InU32 x) :
    satMulU32 v x = some (clamp (v * x)) := by
  have hb : -9223372036854775808 ≤ v * x ∧ v * x ≤ 9223372036854775807 := by
    unfold InI32 InU32 at *; constructor <;> nlinarith
  have hs : (0 ≤ v → 0 ≤ v * x) ∧ (v < 0 → v * x ≤ 0) := by
    unfold InU32 at *; constructor <;> intro h <;> nlinarith
  unfold satMulU32
  have e1 : i64 x = x := by unfold InU32 at *; unfold i64; omega
  have e2 : i64 (u64 v) = v := by unfold InI32 at *; unfold i64 u64; omega
  rw [e1, e2, Int.mul_comm x v]
  generalize v * x = p at *
  have hc : chk64 p = some p := by simp [chk64]; omega
  rw [hc, Option.map_some]
  congr 1
  unfold wmin wmax clamp i32
  split
  · omega
  · split
    · have := hs.1 (by assumption); omega
    · have := hs.2 (by omega); omega

/-- C33: `sat_mul(width, int64_t)`. -/
theorem satMulI64_exact (v x : Int) (hv : InI32 v) (_hx : InI64 x) :
    satMulI64 v x = some (clamp (v * x)) := by
  unfold satMulI64
  dsimp only
  split
  · subst v; simp [clamp]
  · rename_i hv0
    have hs := @mul_sign' v x
    split
    · rename_i hxr
      have hb := mul_bounds hv (show InI32 x from hxr)
      rw [Int.mul_comm x v]
      generalize v * x = p at *
      have hc : chk64 p = some p := by simp [chk64]; omega
      rw [hc, Option.map_some]
      congr 1
      unfold wmin wmax clamp i32
      split
      · omega
      · split
        · have := hs.1 (by assumption); omega
        · have := hs.2 (by simp_all); omega
    · have hm := @mul_sign v x hv0 (by unfold wmin wmax at *; omega)
      congr 1
      unfold wmin wmax clamp
      split
      · have := hm.1 (by assumption); omega
      · have := hm.2 (by simp_all); omega

/-- C33: `sat_mul(width, uint64_t)`. -/
theorem satMulU64_exact (v x : Int) (hv : InI32 v) (hx : InU64 x) :
    satMulU64 v x = some (clamp (v * x)) := by
  unfold satMulU64
  dsimp only
  have e3 : u64 wmax = wmax := by decide
  rw [e3]
  have hs : (0 ≤ v → 0 ≤ v * x) ∧ (v < 0 → v * x ≤ 0) := by
    unfold InU64 at *; constructor <;> intro h <;> nlinarith
  split
  · subst v; simp [clamp]
  · rename_i hv0
    split
    · rename_i hxr
      have hb := mul_bounds hv (show InI32 x by unfold InU64 wmax at *; unfold InI32; omega)
      have e1 : i64 x = x := by unfold InU64 wmax at *; unfold i64; omega
      rw [e1, Int.mul_comm x v]
      generalize v * x = p at *
      have hc : chk64 p = some p := by simp [chk64]; omega
      rw [hc, Option.map_some]
      congr 1
      unfold wmin wmax clamp i32
      split
      · omega
      · split
        · have := hs.1 (by assumption); omega
        · have := hs.2 (by omega); omega
    · unfold wmax at *
      have hm : (0 ≤ v → 2147483648 ≤ v * x) ∧ (v < 0 → v * x ≤ -2147483648) := by
        constructor <;> intro h
        · have : 1 ≤ v := by omega
          nlinarith
        · have : v ≤ -1 := by omega
          nlinarith
      congr 1
      unfold wmin clamp
      split
      · have := hm.1 (by assumption); omega
      · have := hm.2 (by omega); omega

/-- C33: the conversions to width saturate (`width_t(int16_t)`, `width_t(int)`, `width_t(unsigned)`,
`sat_cast`). `sat_cast` maps -32768, which is representable, to the same value `width_min`. -/
theorem conversions_exact :
    (∀ x, InI16 x → ofI16 x = x * 65536) ∧
    (∀ x, ofInt x = clamp (x * 65536) ∨ (x > 0x7FFF ∧ ofInt x = wmax)) ∧
    (∀ x, 0 ≤ x → ofUInt x = clamp (x * 65536) ∨ (x > 0x7FFF ∧ ofUInt x = wmax)) ∧
    (∀ x, satCastI x = clamp (x * 65536) ∨ (x > 0x7FFF ∧ satCastI x = wmax)) ∧
    (∀ x, 0 ≤ x → satCastU x = clamp (x * 65536) ∨ (x > 0x7FFF ∧ satCastU x = wmax)) := by
  refine ⟨?_, ?_, ?_, ?_, ?_⟩ <;> intro x
  · intro h; unfold InI16 at h; unfold ofI16 i32 u32 u16; omega
  · unfold ofInt wmin wmax clamp i32 u32 u16; split <;> (try split) <;> omega
  · intro h; unfold ofUInt wmax clamp i32; split <;> omega
  · unfold satCastI wmin wmax clamp i32 u32; split <;> (try split) <;> omega
  · intro h; unfold satCastU wmax clamp i32; split <;> omega

example : InI32 (5 * 65536) ∧ InI64 (-123456789012) ∧
    satSubI64 (5 * 65536) (-123456789012) = some wmax := by refine ⟨?_, ?_, ?_⟩ <;> decide
example : InI32 98304 ∧ InI32 (-163840) ∧ satMul 98304 (-163840) = some (-245760) := by
  refine ⟨?_, ?_, ?_⟩ <;> decide

/-! ### C34 -/

/-- C34: `floor()` returns the mathematical floor, for every width. -/
theorem floor_correct (v : Int) (hv : InI32 v) : IsFloor v (floor v) := by
  unfold InI32 at *; unfold IsFloor floor i16 i32 u32; split <;> simp <;> omega

/-- C34: `ceil()` returns the mathematical ceiling, for every width. -/
theorem ceil_correct (v : Int) (hv : InI32 v) : IsCeil v (ceil v) := by
  unfold InI32 at *; unfold IsCeil ceil i32 u32 wmin; split <;> (try split) <;> omega

/-- C34: `non_negative_floor()` is the floor of the width, 0 for negative widths. -/
theorem nnFloor_correct (v : Int) (hv : InI32 v) : IsFloor (max v 0) (nnFloor v) := by
  unfold InI32 at *; unfold IsFloor nnFloor u16; split <;> omega

/-- C34: `non_negative_ceil()` is the ceiling of the width, 0 for negative widths. -/
theorem nnCeil_correct (v : Int) (hv : InI32 v) : IsCeil (max v 0) (nnCeil v) := by
  unfold InI32 at *; unfold IsCeil nnCeil u32; simp; split <;> omega

/-- C34: `round()` returns the nearest integer, ties toward zero, for every width. -/
theorem round_correct (v : Int) (hv : InI32 v) : IsRound v (round v) := by
  have hf := floor_correct v hv
  unfold InI32 at *; unfold IsFloor at hf; unfold IsRound round
  simp only
  split
  · split <;> omega
  · split <;> omega

example : round (-163841) = -3 ∧ round (-163840) = -2 ∧ round 163840 = 2 ∧ ceil (-1) = 0 ∧ floor (-1) = -1 := by
  decide

/-! ### C35 -/

/-- C35: a comparison returning the exact difference (or its sign) orders like the exact values:
`r` has the sign of `a - b`. -/
def SignOf (r a b : Int) : Prop := (r < 0 ↔ a < b) ∧ (r = 0 ↔ a = b) ∧ (r > 0 ↔ a > b)

/-- C35: comparing a width with `int32_t`, `uint32_t`, `int64_t` and `uint64_t` is exact, never overflows. -/
theorem compare_exact (v x : Int) (hv : InI32 v) :
    (InI32 x → ∃ r, compareI32 v x = some r ∧ SignOf r v (x * 65536)) ∧
    (InU32 x → ∃ r, compareU32 v x = some r ∧ SignOf r v (x * 65536)) ∧
    (InI64 x → ∃ r, compareI64 v x = some r ∧ SignOf r v (x * 65536)) ∧
    (InU64 x → ∃ r, compareU64 v x = some r ∧ SignOf r v (x * 65536)) := by
  unfold InI32 InU32 InI64 InU64 at *
  refine ⟨?_, ?_, ?_, ?_⟩ <;> intro hx
  · have e : i64 (u64 (u64 x * 65536)) = x * 65536 := by unfold i64 u64; omega
    refine ⟨v - x * 65536, ?_, ?_⟩
    · simp [compareI32, chk64, e]; omega
    · unfold SignOf; omega
  · have e : i64 (u64 (u64 x * 65536)) = x * 65536 := by unfold i64 u64; omega
    refine ⟨v - x * 65536, ?_, ?_⟩
    · simp [compareU32, chk64, e]; omega
    · unfold SignOf; omega
  · unfold compareI64
    split
    · exact ⟨_, rfl, by unfold SignOf; omega⟩
    · split
      · exact ⟨_, rfl, by unfold SignOf; omega⟩
      · have e : i64 (u64 (u64 x * 65536)) = x * 65536 := by unfold i64 u64; omega
        exact ⟨v - x * 65536, by simp [chk64, e]; omega, by unfold SignOf; omega⟩
  · unfold compareU64
    split
    · exact ⟨_, rfl, by unfold SignOf; omega⟩
    · have e : i64 (u64 (x * 65536)) = x * 65536 := by unfold i64 u64; omega
      exact ⟨v - x * 65536, by simp [chk64, e]; omega, by unfold SignOf; omega⟩

/-- C35 (part): comparing with `int16_t` / `uint16_t` is exact when the exact difference fits in `int`.
Missing: the other operands, for which the subtraction overflows (`compareI16_undefined`). -/
theorem compare16_exact_partial (v x : Int) (hv : InI32 v) (hd : InI32 (v - x * 65536)) :
    (InI16 x → ∃ r, compareI16 v x = some r ∧ SignOf r v (x * 65536)) ∧
    (InU16 x → ∃ r, compareU16 v x = some r ∧ SignOf r v (x * 65536)) := by
  unfold InI32 InI16 InU16 at *
  constructor <;> intro hx
  · have e : i32 (u32 (u32 (u16 x) * 65536)) = x * 65536 := by unfold i32 u32 u16; omega
    exact ⟨v - x * 65536, by simp [compareI16, chk32, e]; omega, by unfold SignOf; omega⟩
  · unfold compareU16
    split
    · exact ⟨_, rfl, by unfold SignOf; omega⟩
    · have e : i32 (u32 (u32 x * 65536)) = x * 65536 := by unfold i32 u32; omega
      exact ⟨v - x * 65536, by simp [chk32, e]; omega, by unfold SignOf; omega⟩

/-- C35 is false of `compare(width, int16_t)` (hence of `width < int16_t` etc.): comparing `width_max` with -1
overflows `int`. -/
theorem compareI16_undefined : InI32 wmax ∧ InI16 (-1) ∧ compareI16 wmax (-1) = none := by
  refine ⟨?_, ?_, ?_⟩ <;> decide

example : compareI16 (3 * 65536) 4 = some (-65536) ∧ InI32 (3 * 65536 - 4 * 65536) := by
  constructor <;> decide

theorem tdiv_isTruncQuot (a b : Int) (hb : b ≠ 0) : IsTruncQuot a b (Int.tdiv a b) := by
  unfold IsTruncQuot
  have h1 : (Int.tdiv a b).natAbs = a.natAbs / b.natAbs := Int.natAbs_tdiv a b
  have hb' : 0 < b.natAbs := Int.natAbs_pos.mpr hb
  refine ⟨?_, ?_, ?_⟩
  · rw [h1]; exact Nat.div_mul_le_self _ _
  · rw [h1, Nat.mul_comm]; exact Nat.lt_mul_div_succ _ hb'
  · rcases Int.le_total 0 a with ha | ha <;> rcases Int.le_total 0 b with hb0 | hb0
    · have := Int.tdiv_nonneg ha hb0; positivity
    · have : Int.tdiv a b ≤ 0 := Int.tdiv_nonpos_of_nonneg_of_nonpos ha hb0
      nlinarith [mul_nonneg ha (neg_nonneg.mpr hb0)]
    · have : Int.tdiv a b ≤ 0 := by
        have := Int.tdiv_nonneg (a := -a) (b := b) (by omega) hb0
        rw [Int.neg_tdiv] at this; omega
      nlinarith [mul_nonneg (neg_nonneg.mpr ha) hb0]
    · have : 0 ≤ Int.tdiv a b := by
        have := Int.tdiv_nonneg (a := -a) (b := -b) (by omega) (by omega)
        rwa [Int.neg_tdiv_neg] at this
      nlinarith [mul_nonneg (neg_nonneg.mpr ha) (neg_nonneg.mpr hb0)]

/-- C35 (part): `operator/` gives the exact quotient, truncated, when the dividend is not negative and the
quotient fits. Missing: negative dividends (`div_wrong_negative`) and saturation (`div_wrong_overflow`). -/
theorem div_exact_partial (v w : Int) (hv : InI32 v) (hv0 : 0 ≤ v) (hw0 : w ≠ 0)
    (hfit : InI32 (Int.tdiv (v * 65536) w)) :
    ∃ r, div v w = some r ∧ IsTruncQuot (v * 65536) w r := by
  refine ⟨Int.tdiv (v * 65536) w, ?_, tdiv_isTruncQuot _ _ hw0⟩
  have e : i64 (u64 (u32 v * 65536)) = v * 65536 := by
    unfold InI32 at hv; unfold i64 u64 u32; omega
  unfold div
  rw [if_neg hw0, e]
  generalize Int.tdiv (v * 65536) w = q at *
  unfold InI32 at hfit
  have : chk64 q = some q := by simp [chk64]; omega
  rw [this, Option.map_some]
  congr 1
  unfold i32; omega

/-- C35 is false of `operator/`: -1.0 / 2.0 gives 32767.5. -/
theorem div_wrong_negative : div (-65536) (2 * 65536) = some (32767 * 65536 + 32768) := by decide
/-- C35 is false of `operator/`: 30000 / 0.5 gives -5536 (neither exact nor saturated). -/
theorem div_wrong_overflow : div (30000 * 65536) 32768 = some (-5536 * 65536) := by decide

example : div (7 * 65536) (-2 * 65536) = some (-229376) ∧ InI32 (Int.tdiv (7 * 65536 * 65536) (-2 * 65536)) := by
  constructor <;> decide

/-! ### C36 -/

theorem foldl_dec (ds : List Nat) (a : Nat) :
    ds.foldl (fun a d => 10 * a + d) a = a * 10 ^ ds.length + decNat ds := by
  unfold decNat
  induction ds generalizing a with
  | nil => simp
  | cons d ds ih =>
    rw [List.foldl_cons, ih, List.foldl_cons, ih (10 * 0 + d), List.length_cons, pow_succ]
    ring

theorem decNat_cons (d : Nat) (ds : List Nat) : decNat (d :: ds) = d * 10 ^ ds.length + decNat ds := by
  rw [decNat, List.foldl_cons, foldl_dec]; simp

theorem decNat_append (xs ys : List Nat) : decNat (xs ++ ys) = decNat xs * 10 ^ ys.length + decNat ys := by
  rw [decNat, List.foldl_append, foldl_dec]; rfl

theorem decNat_lt (ds : List Nat) (h : ∀ d ∈ ds, d < 10) : decNat ds < 10 ^ ds.length := by
  induction ds with
  | nil => simp [decNat]
  | cons d ds ih =>
    rw [decNat_cons, List.length_cons, pow_succ]
    have := h d (by simp)
    have := ih (fun x hx => h x (by simp [hx]))
    nlinarith [Nat.pow_pos (n := ds.length) (show 0 < 10 by decide)]

theorem intDigits_eq (ds : List Nat) : (intDigits ds).1 = decNat ds % 2^64 ∧ (intDigits ds).2 = ds.length := by
  induction ds with
  | nil => simp [intDigits, decNat]
  | cons d ds ih =>
    simp only [intDigits, decNat_cons, List.length_cons]
    rw [ih.1, ih.2]
    exact ⟨by simp [Nat.add_mod, Nat.mul_mod], rfl⟩

theorem fracDigits_eq (n : Nat) (ds : List Nat) (hn : ds.length ≤ n) (hd : ∀ d ∈ ds, d < 10) :
    (fracDigits n ds).1 = decNat ds % 2^64 ∧ (fracDigits n ds).2 = ds.length := by
  induction ds generalizing n with
  | nil => cases n <;> simp [fracDigits, decNat]
  | cons d ds ih =>
    match n, hn with
    | n + 2, hn =>
      have ih' := ih (n + 1) (by simp at hn; omega) (fun x hx => hd x (by simp [hx]))
      simp only [fracDigits, decNat_cons, List.length_cons]
      rw [ih'.1, ih'.2]
      exact ⟨by simp [Nat.add_mod, Nat.mul_mod], rfl⟩
    | 1, hn =>
      have : ds = [] := by simpa using hn
      subst this
      have := hd d (by simp)
      simp [fracDigits, roundUp, decNat]; omega
    | 0, hn => simp at hn

/-- rounding half to even of a quotient, as the code computes it -/
theorem nearestEven_of (p q : Nat) (hq : 0 < q) (heven : q % 2 = 0 ∨ q = 1) :
    IsNearestEven p q (p / q + if (p % q > q / 2 || (p % q == q / 2 && p / q % 2 == 1)) && q != 1 then 1 else 0) := by
  unfold IsNearestEven
  have hdm := Nat.div_add_mod p q
  have hlt := Nat.mod_lt p hq
  generalize p / q = a at *
  generalize p % q = r at *
  have hp : p = q * a + r := hdm.symm
  subst hp
  by_cases h1 : q = 1
  · subst h1; simp; omega
  · split
    · rename_i h
      have e : ((q * a + r : Nat) : Int) - ((a + 1 : Nat) : Int) * (q : Int) = (r : Int) - q := by
        push_cast; ring
      rw [e]
      simp at h
      omega
    · rename_i h
      have e : ((q * a + r : Nat) : Int) - ((a + 0 : Nat) : Int) * (q : Int) = (r : Int) := by
        push_cast; ring
      rw [e]
      simp [h1] at h
      omega

/-- C36 (part): a decimal literal with at most 16 fractional digits (which as an integer are less than 2^48, as 14 digits always are) whose value is at most `width_max`
is the nearest multiple of 1/65536 (ties to even). Missing: other fractions (`literal_wrong_15_digits`) and the range check (`literal_wrong_range`). -/
theorem literal_nearest_partial (is fs : List Nat) (hd : ∀ d ∈ fs, d < 10) (hl : fs.length ≤ 16) (hF : decNat fs < 2 ^ 48)
    (hr : decNat (is ++ fs) * 65536 ≤ 2147483647 * 10 ^ fs.length) :
    ∃ r : Nat, literal is fs = some (r : Int) ∧
      IsNearestEven (decNat (is ++ fs) * 65536) (10 ^ fs.length) r := by
  rw [decNat_append] at *
  have hf := decNat_lt fs hd
  have hpow : 10 ^ fs.length ≤ 10 ^ 16 := Nat.pow_le_pow_right (by decide) hl
  have hpos : 0 < 10 ^ fs.length := Nat.pow_pos (by decide)
  have heven : 10 ^ fs.length % 2 = 0 ∨ 10 ^ fs.length = 1 := by
    rcases Nat.eq_zero_or_pos fs.length with h | h
    · right; simp [h]
    · left
      obtain ⟨k, hk⟩ := Nat.exists_eq_succ_of_ne_zero (Nat.pos_iff_ne_zero.mp h)
      rw [hk, pow_succ]; omega
  obtain ⟨hi1, _⟩ := intDigits_eq is
  obtain ⟨hf1, hf2⟩ := fracDigits_eq 16 fs hl hd
  have hzero : 10 ^ fs.length = 1 → decNat fs = 0 := by intro h; omega
  generalize decNat is = I at *
  generalize decNat fs = F at *
  obtain ⟨D, hD⟩ : ∃ D, D = 10 ^ fs.length := ⟨_, rfl⟩
  rw [← hD] at hf hpow hpos heven hzero hr ⊢
  have hI : I * 65536 ≤ 2147483647 := by
    have : I * 65536 * D ≤ 2147483647 * D := by nlinarith
    exact Nat.le_of_mul_le_mul_right this hpos
  have hne := nearestEven_of (F * 65536) D hpos heven
  obtain ⟨c, hc⟩ : ∃ c, c = F * 65536 / D +
      if ((F * 65536) % D > D / 2 || ((F * 65536) % D == D / 2 && (F * 65536) / D % 2 == 1)) && D != 1
      then 1 else 0 := ⟨_, rfl⟩
  rw [← hc] at hne
  have hq : F * 65536 / D ≤ 65536 := by
    apply Nat.le_of_lt_succ; rw [Nat.div_lt_iff_lt_mul hpos]; nlinarith
  have hc1 : c ≤ 65537 := by rw [hc]; split <;> omega
  have hlit : literalAbs is fs = I * 65536 + c := by
    unfold literalAbs
    simp only [hf1, hf2, hi1]
    rw [← hD]
    have e1 : D % 2^64 = D := Nat.mod_eq_of_lt (by omega)
    have e2 : F % 2^64 = F := Nat.mod_eq_of_lt (by omega)
    have e3 : I % 2^64 = I := Nat.mod_eq_of_lt (by omega)
    have e4 : F * 65536 % 2^64 = F * 65536 := Nat.mod_eq_of_lt (by omega)
    have e5 : I * 65536 % 2^64 = I * 65536 := Nat.mod_eq_of_lt (by omega)
    rw [e1, e2, e3, e4, e5]
    by_cases h1 : D = 1
    · have := hzero h1
      subst this; subst h1
      have hc0 : c = 0 := by rw [hc]; rfl
      rw [hc0]
      have : ((decide (0 * 65536 % 1 > 1 / 2) || 0 * 65536 % 1 == 1 / 2 && 0 * 65536 / 1 % 2 == 1)) = false := by
        decide
      rw [this, if_neg (by decide)]
      exact Nat.mod_eq_of_lt (by omega)
    · have hb : (D != 1) = true := by simp [h1]
      rw [hb, Bool.and_true] at hc
      rw [← hc]
      exact Nat.mod_eq_of_lt (by omega)
  have hsum : IsNearestEven ((I * D + F) * 65536) D (I * 65536 + c) := by
    unfold IsNearestEven at *
    have e : (((I * D + F) * 65536 : Nat) : Int) - ((I * 65536 + c : Nat) : Int) * (D : Int)
        = ((F * 65536 : Nat) : Int) - (c : Int) * D := by push_cast; ring
    rw [e]; omega
  refine ⟨I * 65536 + c, ?_, hsum⟩
  have hle : I * 65536 + c ≤ 2147483647 := by
    unfold IsNearestEven at hsum
    by_contra hcon
    have h2 : (2147483648 : Int) * D ≤ ((I * 65536 + c : Nat) : Int) * D := by
      have : (0:Int) ≤ D := by omega
      have : (2147483648 : Int) ≤ ((I * 65536 + c : Nat) : Int) := by omega
      nlinarith
    have h3 : (((I * D + F) * 65536 : Nat) : Int) ≤ 2147483647 * D := by exact_mod_cast hr
    omega
  unfold literal
  simp only [hlit]
  rw [if_pos (by omega), Option.some.injEq]
  unfold i32; omega

/-- C36 is false: 0.923456789012345_w (15 fractional digits) overflows 64 bits and is far from the decimal. -/
theorem literal_wrong_15_digits :
    literal [0] [9,2,3,4,5,6,7,8,9,0,1,2,3,4,5] = some 5179 ∧
    ¬ IsNearestEven (decNat ([0] ++ [9,2,3,4,5,6,7,8,9,0,1,2,3,4,5]) * 65536) (10 ^ 15) 5179 := by
  constructor
  · decide +kernel
  · unfold IsNearestEven; decide +kernel

/-- C36 is false: 40000_w is accepted and denotes a negative width. -/
theorem literal_wrong_range : literal [4,0,0,0,0] [] = some (-25536 * 65536) := by decide

example : literal [1] [2,5] = some 81920 ∧ (∀ d ∈ [2,5], d < 10) ∧
    decNat ([1] ++ [2,5]) * 65536 ≤ 2147483647 * 10 ^ [2,5].length := by decide

end Strf.Width

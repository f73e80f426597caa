import Verif.Width.Ops
import Verif.Width.Sharp
/-!
# C89: operators and functions between widths and integers
-/
namespace Strf.Width
open Strf.CInt Strf.WidthSpec

/-- C89: the value of an operand, in 1/65536 columns -/
def Operand.val : Operand → Int
  | .width v => v
  | .int x => x * 65536

/-- The operand is a width, or an integer between -32768 and 32767. -/
def Operand.Ok : Operand → Prop
  | .width v => InI32 v
  | .int x => InI16 x

/-- one of the operands is a width -/
def Mixed : Operand → Operand → Prop
  | .int _, .int _ => False
  | _, _ => True

instance (a : Operand) : Decidable a.Ok := by cases a <;> unfold Operand.Ok <;> infer_instance

/-- what the operators shall compute: the sum, the difference and the product truncated to 1/65536 and saturated -/
def BinOp.Exact (a b r : Int) : BinOp → Prop
  | .plus => r = a + b
  | .minus => r = a - b
  | .times => r = clamp (Int.tdiv (a * b) 65536)
  | .over => IsTruncQuot (a * 65536) b r

/-- the operands for which the operators of widths are defined and right (C33–C35) -/
def BinOp.Fits (a b : Int) : BinOp → Prop
  | .plus => InI32 (a + b)
  | .minus => InI32 (a - b)
  | .times => True
  | .over => b ≠ 0 ∧ InI32 (Int.tdiv (a * 65536) b) ∧ (0 ≤ a ∨ b.natAbs ∣ 65536)

theorem narrow_ok {x : Int} (h : InI16 x) : ofI16 (i16 x) = x * 65536 := by
  unfold InI16 at h; unfold ofI16 i16 i32 u32 u16; omega

theorem members_exact (o : BinOp) {a b : Int} (ha : InI32 a) (hb : InI32 b) : (∃ r, o.members a b = some r ∧ o.Exact a b r) ↔ o.Fits a b := by
  cases o with
  | plus =>
    constructor
    · rintro ⟨r, e, rfl⟩
      simp only [BinOp.members, add, chk32] at e
      split at e
      · assumption
      · cases e
    · intro hf; exact ⟨a + b, by unfold BinOp.Fits InI32 at hf; simp [BinOp.members, add, chk32]; omega, rfl⟩
  | minus =>
    constructor
    · rintro ⟨r, e, rfl⟩
      simp only [BinOp.members, sub, chk32] at e
      split at e
      · assumption
      · cases e
    · intro hf; exact ⟨a - b, by unfold BinOp.Fits InI32 at hf; simp [BinOp.members, sub, chk32]; omega, rfl⟩
  | times => exact ⟨fun _ => trivial, fun _ => ⟨_, satMul_exact a b ha hb, rfl⟩⟩
  | over => exact div_exact_iff a b ha hb

/-- C89: `a + b`, `a - b`, `a * b`, `a / b` with a width and a width or an integer between -32768 and 32767, on either side, is what the value of the
integer says — the exact sum or difference, the product truncated and saturated, the quotient truncated — if and only if: the sum or difference is a width (otherwise it
is undefined behaviour); for quotients, see `div_exact_iff`. -/
theorem binop_exact_iff (o : BinOp) (a b : Operand) (hm : Mixed a b) (ha : a.Ok) (hb : b.Ok) :
    (∃ r, o.run a b = some r ∧ o.Exact a.val b.val r) ↔ o.Fits a.val b.val := by
  have hi : ∀ {x}, InI16 x → InI32 (x * 65536) := by intro x h; unfold InI16 at h; unfold InI32; omega
  cases a with
  | width v =>
    cases b with
    | width w => exact members_exact o ha hb
    | int x =>
      show (∃ r, o.members v (ofI16 (i16 x)) = some r ∧ _) ↔ _
      rw [narrow_ok hb]
      exact members_exact o ha (hi hb)
  | int x =>
    cases b with
    | int y => exact hm.elim
    | width w =>
      have h : o.run (.int x) (.width w) = o.members (ofI16 (i16 x)) w := by
        cases o with
        | plus => simp only [BinOp.run, BinOp.members, add]; rw [Int.add_comm]
        | minus => rfl
        | times => rfl
        | over => rfl
      rw [h, narrow_ok ha]
      exact members_exact o (hi ha) hb

/-- C89 (part): the operators are right for those operands. Missing: other integers (`narrowed_wrong`), and what `binop_exact_iff` excludes. -/
theorem binop_exact_partial (o : BinOp) (a b : Operand) (hm : Mixed a b) (ha : a.Ok) (hb : b.Ok) (hf : o.Fits a.val b.val) :
    ∃ r, o.run a b = some r ∧ o.Exact a.val b.val r := (binop_exact_iff o a b hm ha hb).mpr hf

/-- what the comparisons shall say -/
def CmpOp.Says (a b : Int) : CmpOp → Prop
  | .eq => a = b
  | .ne => a ≠ b
  | .lt => a < b
  | .le => a ≤ b
  | .gt => a > b
  | .ge => a ≥ b

instance (o : CmpOp) (a b : Int) : Decidable (o.Says a b) := by cases o <;> unfold CmpOp.Says <;> infer_instance

/-- C89 (part): a comparison of a width and a width, or an integer between -32768 and 32767, on either side, says what the value of the integer says:
always for two widths and for == and !=, otherwise if the difference is one that a width can hold. Missing: other integers (`narrowed_wrong`), other differences
(`compare_undefined_wrong`). -/
theorem cmpop_exact_partial (o : CmpOp) (a b : Operand) (hm : Mixed a b) (ha : a.Ok) (hb : b.Ok)
    (hd : (∃ v w, a = .width v ∧ b = .width w) ∨ o = .eq ∨ o = .ne ∨ (InI32 (a.val - b.val) ∧ InI32 (b.val - a.val))) :
    o.run a b = some (decide (o.Says a.val b.val)) := by
  have key : ∀ {v x}, InI16 x → InI32 (v - x * 65536) → compareI16 v (i16 x) = some (v - x * 65536) := by
    intro v x hx h
    have e : i32 (u32 (u32 (u16 (i16 x)) * 65536)) = x * 65536 := by unfold InI16 at hx; unfold i16 i32 u32 u16; omega
    unfold InI32 at h
    simp [compareI16, chk32, e]; omega
  cases a with
  | width v =>
    cases b with
    | width w => cases o <;> rfl
    | int x =>
      have hb : InI16 x := hb
      cases o with
      | eq => simp only [CmpOp.run, CmpOp.members, narrow_ok hb]; exact congrArg some (decide_eq_decide.mpr Iff.rfl)
      | ne => simp only [CmpOp.run, CmpOp.members, narrow_ok hb]; exact congrArg some (decide_eq_decide.mpr Iff.rfl)
      | lt | le | gt | ge =>
        have hd : InI32 (v - x * 65536) := by
          rcases hd with ⟨_, _, _, h⟩ | h | h | h
          · cases h
          · cases h
          · cases h
          · exact h.1
        simp only [CmpOp.run, key hb hd, Option.map_some, CmpOp.zero, CmpOp.Says, Operand.val]
        congr 1
        apply decide_eq_decide.mpr
        omega
  | int x =>
    cases b with
    | int y => exact hm.elim
    | width w =>
      have ha : InI16 x := ha
      cases o with
      | eq => simp only [CmpOp.run, CmpOp.members, narrow_ok ha]; exact congrArg some (decide_eq_decide.mpr Iff.rfl)
      | ne => simp only [CmpOp.run, CmpOp.members, narrow_ok ha]; exact congrArg some (decide_eq_decide.mpr Iff.rfl)
      | lt | le | gt | ge =>
        have hd : InI32 (w - x * 65536) := by
          rcases hd with ⟨_, _, h, _⟩ | h | h | h
          · cases h
          · cases h
          · cases h
          · exact h.2
        simp only [CmpOp.run, key ha hd, Option.map_some, CmpOp.zero, CmpOp.flip, CmpOp.Says, Operand.val]
        congr 1
        apply decide_eq_decide.mpr
        omega

/-- C89 fails for other integers: `width_t(5) < 100000` is false, `width_t(5) + 40000` is -25531 (neither exact nor saturated), `width_t(5) == 65541` is true. -/
theorem narrowed_wrong :
    CmpOp.lt.run (.width (5 * 65536)) (.int 100000) = some false ∧ BinOp.plus.run (.width (5 * 65536)) (.int 40000) = some (-25531 * 65536) ∧
    CmpOp.eq.run (.width (5 * 65536)) (.int 65541) = some true := by
  decide

/-- C89 fails: `width_max > -1` is undefined behaviour, and so is `strf::compare(std::int16_t(0), width_min)`, although the difference fits: it is negated. -/
theorem compare_undefined_wrong :
    CmpOp.gt.run (.width wmax) (.int (-1)) = none ∧ compareFlippedFn 0 wmin .i16 = some none ∧ compareFn wmin 0 .i16 = some (some wmin) := by
  decide

/-- C89: The functions sat_add, sat_sub and sat_mul: for the types of integers for which they exist, the result is the exact one, clamped; sat_sub of a 64-bit integer only
as far as C33 says. -/
theorem sat_functions_exact (t : IntTag) (v x : Int) (hv : InI32 v) (hx : t.Has x) :
    (∀ r, satAddFn v x t = some r → r = some (clamp (v + x * 65536))) ∧
    (∀ r, satSubFn v x t = some r → (t = .i64 → x ≥ wmax * 131072 ∨ x ≤ wmin * 131072 ∨ (InI64 (x * 65536) ∧ InI64 (v - x * 65536))) → r = some (clamp (v - x * 65536))) ∧
    (∀ r, satMulFn v x t = some r → r = some (clamp (v * x))) := by
  refine ⟨fun r e => ?_, fun r e hs => ?_, fun r e => ?_⟩
  · cases t <;> simp only [satAddFn, Option.some.injEq, reduceCtorEq] at e <;> subst e
    · exact satAddI16_exact v x hv hx
    · exact satAddI32_exact v x hv hx
    · exact satAddI64_exact v x hv hx
  · cases t <;> simp only [satSubFn, Option.some.injEq, reduceCtorEq] at e <;> subst e
    · exact satSubI16_exact v x hv hx
    · exact satSubI32_exact v x hv hx
    · exact satSubI64_exact_partial v x hv hx (hs rfl)
  · cases t <;> simp only [satMulFn, Option.some.injEq, reduceCtorEq] at e <;> subst e
    · exact satMulI16_exact v x hv hx
    · exact satMulI32_exact v x hv hx
    · exact satMulU32_exact v x hv hx
    · exact satMulI64_exact v x hv hx
    · exact satMulU64_exact v x hv hx

/-- C89: `strf::compare(w, i)` and `strf::compare(i, w)` with a 32- or 64-bit integer: the sign of the result tells the order of the values. -/
theorem compare_functions_exact (t : IntTag) (v x : Int) (hv : InI32 v) (hx : t.Has x) (ht : t = .i32 ∨ t = .u32 ∨ t = .i64 ∨ t = .u64) :
    (∃ r, compareFn v x t = some (some r) ∧ SignOf r v (x * 65536)) ∧ ∃ r, compareFlippedFn x v t = some (some r) ∧ SignOf r (x * 65536) v := by
  obtain ⟨h1, h2, h3, h4⟩ := compare_exact v x hv
  have flip : ∀ {r : Int}, SignOf r v (x * 65536) → SignOf (-r) (x * 65536) v := by
    intro r h; unfold SignOf at h ⊢; omega
  have small : ∀ r, (compareI32 v x = some r ∧ t = .i32) ∨ (compareU32 v x = some r ∧ t = .u32) ∨ (compareI64 v x = some r ∧ t = .i64) ∨
      (compareU64 v x = some r ∧ t = .u64) → chk64 (-r) = some (-r) := by
    intro r h
    have : -9223372036854775807 ≤ r ∧ r ≤ 9223372036854775807 := by
      unfold InI32 at hv
      rcases h with ⟨h, rfl⟩ | ⟨h, rfl⟩ | ⟨h, rfl⟩ | ⟨h, rfl⟩
      · have hx : InI32 x := hx
        unfold InI32 at hx
        simp only [compareI32, chk64] at h
        split at h
        · cases h; unfold i64 u64; omega
        · cases h
      · have hx : InU32 x := hx
        unfold InU32 at hx
        simp only [compareU32, chk64] at h
        split at h
        · cases h; unfold i64 u64; omega
        · cases h
      · have hx : InI64 x := hx
        simp only [compareI64, chk64] at h
        split at h
        · cases h; omega
        · split at h
          · cases h; omega
          · split at h
            · cases h; unfold i64 u64; omega
            · cases h
      · have hx : InU64 x := hx
        unfold InU64 at hx
        simp only [compareU64, chk64] at h
        split at h
        · cases h; omega
        · split at h
          · cases h; unfold i64 u64; omega
          · cases h
    simp [chk64]; omega
  rcases ht with rfl | rfl | rfl | rfl
  · obtain ⟨r, e, s⟩ := h1 hx
    exact ⟨⟨r, by simp [compareFn, e], s⟩, -r, by simp [compareFlippedFn, e, small r (.inl ⟨e, rfl⟩)], flip s⟩
  · obtain ⟨r, e, s⟩ := h2 hx
    exact ⟨⟨r, by simp [compareFn, e], s⟩, -r, by simp [compareFlippedFn, e, small r (.inr (.inl ⟨e, rfl⟩))], flip s⟩
  · obtain ⟨r, e, s⟩ := h3 hx
    exact ⟨⟨r, by simp [compareFn, e], s⟩, -r, by simp [compareFlippedFn, e, small r (.inr (.inr (.inl ⟨e, rfl⟩)))], flip s⟩
  · obtain ⟨r, e, s⟩ := h4 hx
    exact ⟨⟨r, by simp [compareFn, e], s⟩, -r, by simp [compareFlippedFn, e, small r (.inr (.inr (.inr ⟨e, rfl⟩)))], flip s⟩

/-- C89 (part): the same with a 16-bit integer, where the difference and its opposite are values of `int`; otherwise it is undefined behaviour
(`compare_undefined_wrong`), except for the integers that no width reaches. -/
theorem compare16_functions_exact_partial (t : IntTag) (v x : Int) (hv : InI32 v) (hx : t.Has x) (ht : t = .i16 ∨ t = .u16)
    (h : 32768 ≤ x ∨ -2147483648 < v - x * 65536 ∧ v - x * 65536 ≤ 2147483647) :
    (∃ r, compareFn v x t = some (some r) ∧ SignOf r v (x * 65536)) ∧ ∃ r, compareFlippedFn x v t = some (some r) ∧ SignOf r (x * 65536) v := by
  have flip : ∀ {r : Int}, SignOf r v (x * 65536) → SignOf (-r) (x * 65536) v := by
    intro r h; unfold SignOf at h ⊢; omega
  have sign : SignOf (v - x * 65536) v (x * 65536) := by unfold SignOf; omega
  unfold InI32 at hv
  rcases ht with rfl | rfl
  · have hx : InI16 x := hx
    unfold InI16 at hx
    have e : compareI16 v x = some (v - x * 65536) := by
      unfold compareI16 chk32 i32 u32 u16
      rw [show (x % 65536 % 4294967296 * 65536 % 4294967296 + 2147483648) % 4294967296 - 2147483648 = x * 65536 by omega]
      rw [if_pos (by omega)]
    refine ⟨⟨_, by simp [compareFn, e], sign⟩, _, ?_, flip sign⟩
    simp [compareFlippedFn, e, chk32]; omega
  · have hx : InU16 x := hx
    unfold InU16 at hx
    by_cases hb : x ≥ 32768
    · have e : compareU16 v x = some (-1) := by unfold compareU16; rw [if_pos hb]
      have s : SignOf (-1) v (x * 65536) := by unfold SignOf; omega
      exact ⟨⟨_, by simp [compareFn, e], s⟩, _, by simp [compareFlippedFn, e, chk32], flip s⟩
    · have e : compareU16 v x = some (v - x * 65536) := by
        unfold compareU16
        rw [if_neg hb]
        unfold chk32 i32 u32
        rw [show (x % 4294967296 * 65536 % 4294967296 + 2147483648) % 4294967296 - 2147483648 = x * 65536 by omega]
        rw [if_pos (by omega)]
      refine ⟨⟨_, by simp [compareFn, e], sign⟩, _, ?_, flip sign⟩
      simp [compareFlippedFn, e, chk32]; omega

/-- 40000 as an unsigned 16-bit integer is greater than every width -/
example : compareFn 2147483647 40000 .u16 = some (some (-1)) ∧ compareFn 65536 3 .u16 = some (some (-131072)) := by decide

/-- C89: 1.5 + 2 = 3.5, 2 - 1.5 = 0.5, 3 * 1.5 = 4.5, 3 / 1.5 = 2, 1.5 < 2 -/
example :
    BinOp.plus.run (.width 98304) (.int 2) = some 229376 ∧ BinOp.minus.run (.int 2) (.width 98304) = some 32768 ∧
    BinOp.times.run (.int 3) (.width 98304) = some 294912 ∧ BinOp.over.run (.int 3) (.width 98304) = some 131072 ∧
    CmpOp.lt.run (.width 98304) (.int 2) = some true ∧ CmpOp.lt.run (.int 2) (.width 98304) = some false := by decide

example : BinOp.over.Fits (Operand.int 3).val (Operand.width 98304).val := by
  unfold BinOp.Fits; decide

end Strf.Width

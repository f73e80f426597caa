import Verif.Print.Props
import Mathlib.Tactic.ByContra
/-
C39: exactly where the width of an aligned join is right.
-/
namespace Strf.Print
open Strf.Width
open Strf.IntPrinter (AlignFmt)
open Strf.Dest (Dest Lawful Prints)

variable {σ : Type} {D : Dest Nat σ} {Rep : σ → List Nat → Prop} {C : Charset σ}

/-- C39, exactly: when the width of an aligned join is measured, with some limit, and the members are not wider than
both the limit and the alignment, the width is that of the members and the fill characters, but at most the limit, if
and only if neither of two sums overflows: the width of the members and what the limit exceeds the width of the
alignment; and (unless the limit is reached anyhow) the greater of limit and alignment and the width of the fill
characters. If the first overflows the behaviour is undefined. -/
theorem join_width_iff (L : Lawful D Rep) {its : List (Item σ)} {ms : List Meaning} (a : AlignFmt) (n : Nat)
    (limit : Int) (hl : 0 ≤ limit ∧ limit ≤ wmax) (ha : 0 ≤ a.width ∧ a.width ≤ wmax)
    (h : AllMean τ D Rep (max limit a.width) its ms)
    (hroom : (total ms).room ≤ wmax ∨ max limit a.width + (total ms).cost ≤ wmax)
    (hw : (total ms).width ≤ max limit a.width) (hn : FillCount a.width (total ms).width n) :
    (∃ p' pr, (alignedJoin D C a its).make ⟨none, some (.init limit)⟩ = some (p', pr) ∧
      p'.accumulated = some (min limit ((total ms).width + n * 65536))) ↔
    ((total ms).width + (max limit a.width - a.width) ≤ wmax ∧
      (max limit a.width + n * 65536 ≤ wmax ∨ limit ≤ wmax - max limit a.width + (total ms).width)) := by
  obtain ⟨hw0, hwr, hc0⟩ := h.nonneg
  have hwm : wmax = 2147483647 := rfl
  obtain ⟨hu1, hu2⟩ := fillCount_unique hn
  have hnb : n = 0 ∨ ((total ms).width < a.width ∧ (total ms).width + n * 65536 ≤ a.width + 32768) := by
    unfold FillCount WidthSpec.IsRound at hn; split at hn <;> omega
  obtain ⟨M, hM⟩ : ∃ M, M = max limit a.width := ⟨_, rfl⟩
  rw [← hM] at h hroom hw ⊢
  obtain ⟨b, hb, hb1, hb2⟩ : ∃ b, b = Acc.init limit ∧ b.width = 0 ∧ b.limit = limit := ⟨_, rfl, rfl, rfl⟩
  rw [← hb]
  clear hb
  have hlims : joinLimits a ⟨none, some b⟩ = some (M, M - a.width) := by
    unfold joinLimits Pre.remainingGreater Pre.remaining
    simp only [Acc.remainingGreater, Width.add, CInt.chk32]
    rw [if_pos (by omega)]
    simp only [Option.map_some, Option.bind_some, decide_eq_true_eq]
    by_cases hlt : b.width + a.width < b.limit
    · rw [if_pos hlt]
      unfold Acc.remaining Width.sub CInt.chk32
      rw [if_pos (by omega), if_pos (by omega)]
      simp only [Option.bind_some]
      rw [if_pos (by omega)]
      simp only [Option.map_some, Option.some.injEq, Prod.mk.injEq]
      omega
    · rw [if_neg hlt]
      simp only [Option.some.injEq, Prod.mk.injEq]
      omega
  obtain ⟨q, prs, e, hpr, g1, _, g3⟩ := h.make L ⟨none, some (.init M)⟩ (by
    intro x hx; cases hx
    refine ⟨⟨by simp [Acc.init], by simp [Acc.init, wmax], ?_⟩, ?_, ?_⟩
    · simp [Acc.init, CInt.InI32]; omega
    · simp only [Acc.init]; omega
    · simp only [Acc.init]; omega)
  obtain ⟨x, hx, gl, ga, gb, gb', gc, gd⟩ := g3 _ rfl
  simp only [Acc.init] at gl ga gb gb' gc gd
  have hxw : x.width = (total ms).width := by have := gc (by omega); omega
  have hrem : q.remaining = some (M - x.width) := by
    unfold Pre.remaining Acc.remaining
    rw [hx]
    dsimp only
    rw [gl, if_pos (by omega)]
    unfold Width.sub CInt.chk32
    rw [if_pos (by omega)]
  unfold alignedJoin
  dsimp only
  unfold joinWidth
  rw [hlims]
  simp only [Option.bind_some, Option.map_none]
  rw [e]
  simp only [Option.bind_some]
  by_cases hov : (total ms).width + (M - a.width) ≤ wmax
  · have hfill : joinFill q (M - a.width) = some (n : Int) := by
      unfold joinFill
      rw [hrem]
      unfold Pre.remainingGreater
      rw [hx]
      simp only [Acc.remainingGreater, Width.add, CInt.chk32, gl]
      rw [if_pos (by omega)]
      simp only [Option.map_some, Option.bind_some, decide_eq_true_eq]
      by_cases hlt : x.width + (M - a.width) < M
      · rw [if_pos hlt]
        unfold Width.sub CInt.chk32
        rw [if_pos (by omega)]
        simp only [Option.map_some, Option.some.injEq]
        refine hu1 (by omega) _ ?_
        have : M - x.width - (M - a.width) = a.width - (total ms).width := by omega
        rw [this]
        exact Width.round_correct _ (by unfold CInt.InI32; omega)
      · rw [if_neg hlt, hu2 (by omega)]; rfl
    rw [hfill]
    simp only [Option.bind_some]
    rw [Width.satAddI32_exact M n (by unfold CInt.InI32; omega) (by unfold CInt.InI32; omega)]
    simp only [Option.bind_some, hrem]
    rw [Width.satSub_exact _ _ (by unfold CInt.InI32 WidthSpec.clamp; omega) (by unfold CInt.InI32; omega)]
    simp only [Option.bind_some]
    have hcl : WidthSpec.clamp (WidthSpec.clamp (M + n * 65536) - (M - x.width)) =
        min wmax (M + n * 65536) - (M - (total ms).width) := by
      unfold WidthSpec.clamp
      omega
    rw [hcl]
    unfold Pre.addWidth
    simp only [Acc.addWidth, Width.add, CInt.chk32]
    rw [if_pos (by omega)]
    simp only [Option.map_some]
    constructor
    · rintro ⟨p', pr, he, hacc⟩
      refine ⟨hov, ?_⟩
      simp only [Option.some.injEq, Prod.mk.injEq] at he
      rw [← he.1] at hacc
      unfold Pre.accumulated at hacc
      rw [addFilledSize_acc] at hacc
      simp only [Option.map_some, Acc.accumulated, Option.some.injEq, hb1, hb2] at hacc
      split at hacc <;> omega
    · rintro ⟨_, hc⟩
      refine ⟨_, _, rfl, ?_⟩
      unfold Pre.accumulated
      rw [addFilledSize_acc]
      simp only [Option.map_some, Acc.accumulated, Option.some.injEq, hb1, hb2]
      split <;> omega
  · have hfill : joinFill q (M - a.width) = none := by
      unfold joinFill Pre.remainingGreater
      rw [hx]
      simp only [Acc.remainingGreater, Width.add, CInt.chk32, gl]
      rw [if_neg (by omega)]
      rfl
    rw [hfill]
    simp only [Option.bind_none]
    constructor
    · rintro ⟨_, _, he, _⟩; cases he
    · rintro ⟨hc, _⟩; exact absurd hc hov

/-- join_right(10)(123) with a limit of 32757 columns is measured rightly, with one of 32761 it is not -/
example : ∃ ms, AllMean true Dest.Maker.dest (fun s t => Dest.Maker.Rep s t) (max (32757 * 65536) (10 * 65536))
      [intItem Dest.Maker.dest ⟨true, 4, 123⟩] ms ∧ (total ms).width = 3 * 65536 ∧ (total ms).room ≤ wmax ∧
    FillCount (10 * 65536) (total ms).width 7 ∧
    (32757 * 65536 + (7 : Nat) * 65536 ≤ wmax ∧ ¬ 32761 * 65536 + (7 : Nat) * 65536 ≤ wmax) := by
  refine ⟨_, .cons (intItem_means Dest.Maker.lawful _ (fun c => [c]) .lower ⟨true, 4, 123⟩ (by decide)) .nil, ?_, ?_, ?_, ?_⟩ <;>
    decide +kernel

end Strf.Print

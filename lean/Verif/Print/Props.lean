import Verif.Print.Ints
/-
C37: premeasurements. C39: joins.
-/
namespace Strf.Print
open Strf.Width
open Strf.IntPrinter (AlignFmt)
open Strf.Dest (Dest Lawful Prints)

/-! ## C37: the accumulators -/

/-- the operations of a width accumulator -/
inductive WOp
  | add (w : Int)
  | checked (w : Int)
deriving DecidableEq, Repr

/-- a sequence of operations -/
def WOp.run : List WOp → Acc → Option Acc
  | [], a => some a
  | .add w :: ops, a => (a.addWidth w).bind (run ops)
  | .checked w :: ops, a => (a.checkedAddWidth w).bind (run ops)

/-- the width an operation adds -/
def WOp.width : WOp → Int
  | .add w => w
  | .checked w => w

/-- the sum of all widths -/
def WOp.sum (ops : List WOp) : Int := (ops.map WOp.width).sum
/-- the sum of the widths added without check -/
def WOp.unchecked (ops : List WOp) : Int := (ops.map fun | .add w => w | .checked _ => 0).sum

theorem WOp.sums_nonneg {ops : List WOp} (h : ∀ o ∈ ops, 0 ≤ o.width) : 0 ≤ WOp.sum ops ∧ 0 ≤ WOp.unchecked ops := by
  induction ops with
  | nil => simp [sum, unchecked]
  | cons o ops ih =>
    have h1 := h o (List.mem_cons_self ..)
    obtain ⟨h2, h3⟩ := ih (fun x hx => h x (List.mem_cons_of_mem _ hx))
    unfold sum unchecked at *
    cases o <;> simp only [List.map_cons, List.sum_cons, width] at * <;> omega

theorem WOp.run_spec (ops : List WOp) : ∀ (a : Acc), (∀ o ∈ ops, 0 ≤ o.width) → a.Ok →
    (a.width + WOp.sum ops ≤ wmax ∨ max a.width a.limit + WOp.unchecked ops ≤ wmax) →
    ∃ a', WOp.run ops a = some a' ∧ a'.Ok ∧ a'.limit = a.limit ∧ a.width ≤ a'.width ∧
      min a'.width a.limit = min (a.width + WOp.sum ops) a.limit := by
  induction ops with
  | nil => intro a _ h _; exact ⟨a, rfl, h, rfl, by omega, by simp [WOp.sum]⟩
  | cons o ops ih =>
    intro a hnn hok hroom
    have h1 := hnn o (List.mem_cons_self ..)
    have htl : ∀ x ∈ ops, 0 ≤ x.width := fun x hx => hnn x (List.mem_cons_of_mem _ hx)
    obtain ⟨s1, s2⟩ := WOp.sums_nonneg htl
    obtain ⟨k1, k2, k3⟩ := hok
    have k3' := k3
    unfold CInt.InI32 at k3'
    have hwm : wmax = 2147483647 := rfl
    unfold WOp.sum WOp.unchecked at *
    cases o with
    | add w =>
      simp only [WOp.width, List.map_cons, List.sum_cons] at *
      unfold run
      unfold Acc.addWidth Width.add CInt.chk32
      rw [if_pos (by omega)]
      simp only [Option.map_some, Option.bind_some]
      obtain ⟨a', e, r1, r2, r3, r4⟩ := ih { a with width := a.width + w } htl
        ⟨by simp only; omega, by simp only; omega, k3⟩ (by simp only; omega)
      simp only at r2 r3 r4
      exact ⟨a', e, r1, r2, by omega, by omega⟩
    | checked w =>
      simp only [WOp.width, List.map_cons, List.sum_cons] at *
      unfold run Acc.checkedAddWidth
      by_cases hc : w > 0 ∧ a.width < a.limit
      · rw [if_pos hc]
        unfold Width.sub CInt.chk32
        rw [if_pos (by omega)]
        dsimp only
        by_cases hg : w ≥ a.limit - a.width
        · rw [if_pos hg]
          simp only [Option.bind_some]
          obtain ⟨a', e, r1, r2, r3, r4⟩ := ih { a with width := a.limit } htl
            ⟨by simp only; omega, by simp only; omega, k3⟩ (by simp only; omega)
          simp only at r2 r3 r4
          exact ⟨a', e, r1, r2, by omega, by omega⟩
        · rw [if_neg hg]
          unfold Acc.addWidth Width.add CInt.chk32
          rw [if_pos (by omega)]
          simp only [Option.map_some, Option.bind_some]
          obtain ⟨a', e, r1, r2, r3, r4⟩ := ih { a with width := a.width + w } htl
            ⟨by simp only; omega, by simp only; omega, k3⟩ (by simp only; omega)
          simp only at r2 r3 r4
          exact ⟨a', e, r1, r2, by omega, by omega⟩
      · rw [if_neg hc]
        simp only [Option.bind_some]
        obtain ⟨a', e, r1, r2, r3, r4⟩ := ih a htl ⟨k1, k2, k3⟩ (by omega)
        exact ⟨a', e, r1, r2, r3, by omega⟩

/-- C37: whatever non-negative widths are added to a width accumulator, with add_width or checked_add_width and in
whatever order, the accumulated width is their sum, but at most the limit; the remaining width is what the limit
exceeds that; and there is remaining width if and only if the sum is below the limit. There is no undefined behaviour as
long as the sum can be represented, or the limit plus the sum of the widths added with add_width can. -/
theorem width_accumulator_exact_partial (limit : Int) (hl : CInt.InI32 limit) (ops : List WOp)
    (hnn : ∀ o ∈ ops, 0 ≤ o.width)
    (hsum : WOp.sum ops ≤ wmax ∨ max 0 limit + WOp.unchecked ops ≤ wmax) :
    ∃ a, WOp.run ops (.init limit) = some a ∧ a.accumulated = min limit (WOp.sum ops) ∧
      a.remaining = some (limit - min limit (WOp.sum ops)) ∧ (a.hasRemaining = true ↔ WOp.sum ops < limit) := by
  obtain ⟨a', e, ⟨k1, k2, k3⟩, r2, r3, r4⟩ := WOp.run_spec ops (.init limit) hnn ⟨by simp [Acc.init], by simp [Acc.init, wmax], hl⟩
    (by simp only [Acc.init]; omega)
  simp only [Acc.init] at r2 r3 r4
  have h0 := (WOp.sums_nonneg hnn).1
  unfold CInt.InI32 at hl
  have hwm : wmax = 2147483647 := rfl
  refine ⟨a', e, ?_, ?_, ?_⟩
  · unfold Acc.accumulated; split <;> omega
  · unfold Acc.remaining Width.sub CInt.chk32
    by_cases hle : a'.width ≤ a'.limit
    · rw [if_pos hle, if_pos (by omega)]; congr 1; omega
    · rw [if_neg hle]; congr 1; omega
  · unfold Acc.hasRemaining; simp only [decide_eq_true_eq]; omega

/-- and with checked_add_width alone there is none, whatever the widths, even if the sum is too big for a width_t -/
theorem checked_width_accumulator_exact (limit : Int) (hl : CInt.InI32 limit) (ws : List Int) (hnn : ∀ w ∈ ws, 0 ≤ w) :
    ∃ a, WOp.run (ws.map .checked) (.init limit) = some a ∧ a.accumulated = min limit ws.sum ∧
      a.remaining = some (limit - min limit ws.sum) ∧ (a.hasRemaining = true ↔ ws.sum < limit) := by
  have h1 : WOp.sum (ws.map .checked) = ws.sum := by
    unfold WOp.sum; rw [List.map_map]; congr 1; exact List.map_id ws
  have h2 : WOp.unchecked (ws.map .checked) = 0 := by
    unfold WOp.unchecked
    rw [List.map_map]
    induction ws with
    | nil => rfl
    | cons w ws ih => simp only [List.map_cons, List.sum_cons, Function.comp]; rw [Int.zero_add]; exact ih (fun x hx => hnn x (List.mem_cons_of_mem _ hx)) (by unfold WOp.sum; rw [List.map_map]; congr 1; exact List.map_id ws)
  obtain ⟨a, e, r⟩ := width_accumulator_exact_partial limit hl (ws.map .checked) (by
    intro o ho
    obtain ⟨w, hw, rfl⟩ := List.mem_map.mp ho
    exact hnn w hw) (.inr (by unfold CInt.InI32 at hl; have : wmax = 2147483647 := rfl; omega))
  rw [h1] at r
  exact ⟨a, e, r⟩

example : WOp.run ([30000 * 65536, 30000 * 65536].map .checked) (.init wmax) = some ⟨wmax, wmax⟩ := by decide
example : (∀ o ∈ [WOp.add 65536, .checked 131072, .add 65536], 0 ≤ o.width) ∧
    (WOp.run [WOp.add 65536, .checked 131072, .add 65536] (.init 131072)).map (·.accumulated) = some 131072 := by decide

/-- The order does not matter. -/
theorem width_accumulator_order (limit : Int) (ops ops' : List WOp) (h : ops.Perm ops') (hl : CInt.InI32 limit)
    (hnn : ∀ o ∈ ops, 0 ≤ o.width) (hsum : WOp.sum ops ≤ wmax ∨ max 0 limit + WOp.unchecked ops ≤ wmax) :
    ∃ a a', WOp.run ops (.init limit) = some a ∧ WOp.run ops' (.init limit) = some a' ∧
      a.accumulated = a'.accumulated ∧ a.remaining = a'.remaining ∧ a.hasRemaining = a'.hasRemaining := by
  have hs : WOp.sum ops = WOp.sum ops' ∧ WOp.unchecked ops = WOp.unchecked ops' := by
    clear hnn hsum
    induction h with
    | nil => simp
    | cons _ _ ih => unfold WOp.sum WOp.unchecked at *; simp only [List.map_cons, List.sum_cons]; omega
    | swap => unfold WOp.sum WOp.unchecked at *; simp only [List.map_cons, List.sum_cons]; omega
    | trans _ _ h1 h2 => omega
  obtain ⟨a, e, r1, r2, r3⟩ := width_accumulator_exact_partial limit hl ops hnn hsum
  obtain ⟨a', e', s1, s2, s3⟩ := width_accumulator_exact_partial limit hl ops' (fun o ho => hnn o (h.mem_iff.mpr ho))
    (by rw [← hs.1, ← hs.2]; exact hsum)
  refine ⟨a, a', e, e', by rw [r1, s1, hs.1], by rw [r2, s2, hs.1], ?_⟩
  rw [Bool.eq_iff_iff, r3, s3, hs.1]

/-- saturate_width makes the limit the accumulated width: nothing remains -/
theorem saturate_exact (a : Acc) (ha : CInt.InI32 a.limit) : a.saturate.accumulated = a.limit ∧
    a.saturate.remaining = some 0 ∧ a.saturate.hasRemaining = false := by
  unfold Acc.accumulated Acc.remaining Acc.hasRemaining Acc.saturate
  simp [Width.sub, CInt.chk32]

/-- The negation of what is missing in `width_accumulator_exact_partial`: the default limit is the greatest width_t, and
add_width overflows when the widths of two texts together have more than 32767 columns. -/
theorem add_width_overflow : ∃ ops : List WOp, (∀ o ∈ ops, 0 ≤ o.width ∧ o.width ≤ wmax) ∧ WOp.run ops .default = none :=
  ⟨[.add (30000 * 65536), .add (3000 * 65536)], by decide⟩

/-! ## measure -/

variable {σ : Type} {D : Dest Nat σ} {Rep : σ → List Nat → Prop} {C : Charset σ}

/-- the width of the premeasurements after `strf::measure` -/
def Pre.accumulated (p : Pre) : Option Int := p.acc.map (·.accumulated)

theorem measureWidth_spec {B : Int} {its : List (Item σ)} {ms : List Meaning} (h : AllMean τ D Rep B its ms) :
    ∀ p : Pre, p.acc.isSome → p.Room (total ms).room (total ms).cost B →
    ∃ p', measureWidth its p = some p' ∧ ∀ a, p.acc = some a → ∃ a', p'.acc = some a' ∧ a'.limit = a.limit ∧
      min a'.width a.limit = min (a.width + (total ms).width) a.limit := by
  induction h with
  | nil => intro p _ _; exact ⟨p, rfl, fun a ha => ⟨a, ha, rfl, by simp [total]⟩⟩
  | @cons it its m ms h1 hs ih =>
    intro p hsome hp
    have h0 := h1.1
    have h2 := h1.2.1
    have h3 := h1.2.2.1
    have hn := hs.nonneg
    unfold measureWidth
    by_cases hr : p.hasRemaining = true
    · rw [if_pos hr]
      simp only [total] at hp ⊢
      obtain ⟨q, pr, e1, p1, g1⟩ := h1.2.2.2 p (hp.mono (by omega) (by omega))
      rw [e1]
      dsimp only
      have hg := g1
      obtain ⟨_, _, g3⟩ := g1
      obtain ⟨a, ha⟩ := Option.isSome_iff_exists.mp hsome
      obtain ⟨b, hb, l, m1, m2, m3, m4, m5⟩ := g3 a ha
      obtain ⟨p', e2, r⟩ := ih q (by rw [hb]; rfl) (Pre.Grown.room (by omega) h3 (by omega) h2 hg hp)
      refine ⟨p', e2, ?_⟩
      intro a2 ha2
      rw [ha] at ha2; cases ha2
      obtain ⟨a', ha', l', r'⟩ := r b hb
      rw [l] at r'
      refine ⟨a', ha', l'.trans l, ?_⟩
      by_cases hh : a.width + m.width ≤ a.limit
      · have := m4 hh; rw [r', this]; congr 1; omega
      · have := m5 (by omega); omega
    · rw [if_neg hr]
      refine ⟨p, rfl, fun a ha => ⟨a, ha, rfl, ?_⟩⟩
      unfold Pre.hasRemaining Acc.hasRemaining at hr
      rw [ha] at hr
      simp only [decide_eq_true_eq, total] at hr ⊢
      omega

/-- C37: strf::measure for the width only gives the sum of the widths of the arguments, but at most the limit, although
it stops at the first argument that reaches the limit. -/
theorem measure_width_exact {B : Int} {its : List (Item σ)} {ms : List Meaning} (h : AllMean τ D Rep B its ms) (limit : Int)
    (hl : CInt.InI32 limit) (hB : limit ≤ B)
    (hroom : (total ms).room ≤ wmax ∨ max 0 limit + (total ms).cost ≤ wmax) :
    (measureWidth its ⟨none, some (.init limit)⟩).bind Pre.accumulated = some (min limit (total ms).width) := by
  obtain ⟨p', e, r⟩ := measureWidth_spec h ⟨none, some (.init limit)⟩ rfl (by
    intro a ha; cases ha
    exact ⟨⟨by simp [Acc.init], by simp [Acc.init, wmax], hl⟩, hB, by simp only [Acc.init]; omega⟩)
  obtain ⟨a', ha', l, r'⟩ := r _ rfl
  simp only [Acc.init] at l r'
  rw [e]
  simp only [Option.bind_some, Pre.accumulated, ha', Option.map_some, Acc.accumulated, Option.some.injEq]
  split <;> omega

/-- C37: strf::measure for the size, with or without the width, gives the number of code units printed and the sum of
the widths, but at most the limit, in whatever order the compiler evaluates the arguments. -/
theorem measure_size_exact (L : Lawful D Rep) {B : Int} {its' : List (Item σ)} {ms ms' : List Meaning}
    (hp : ms.Perm ms') (h' : AllMean τ D Rep B its' ms') (acc : Option Acc)
    (hacc : ∀ a, acc = some a → ∃ limit, a = .init limit ∧ CInt.InI32 limit ∧ limit ≤ B ∧
      ((total ms).room ≤ wmax ∨ max 0 limit + (total ms).cost ≤ wmax)) :
    (measureSize its' ⟨some 0, acc⟩).bind (·.size) = some (total ms).text.length ∧
    ∀ a, acc = some a → (measureSize its' ⟨some 0, acc⟩).bind Pre.accumulated = some (min a.limit (total ms).width) := by
  obtain ⟨t1, t2, t3, t4⟩ := total_perm hp
  obtain ⟨p', prs, e, _, g1, _, g3⟩ := h'.make L ⟨some 0, acc⟩ (by
    intro a ha
    obtain ⟨limit, rfl, hl, hB, hr⟩ := hacc a ha
    exact ⟨⟨by simp [Acc.init], by simp [Acc.init, wmax], hl⟩, hB, by simp only [Acc.init]; omega⟩)
  unfold measureSize
  rw [e]
  simp only [Option.map_some, Option.bind_some]
  refine ⟨by rw [g1, t4]; simp, ?_⟩
  intro a ha
  obtain ⟨a', ha', l, x1, x2, x3, x4, x5⟩ := g3 a ha
  obtain ⟨limit, rfl, _⟩ := hacc a ha
  simp only [Acc.init] at l x1 x2 x3 x4 x5 ⊢
  simp only [Pre.accumulated, ha', Option.map_some, Acc.accumulated, Option.some.injEq]
  split <;> omega

/-! ## C39: joins -/

/-- C39: an aligned join prints its members in order and as many fill characters as are missing to the width, before,
after or around; the size reported when no width is demanded is the number of code units. -/
theorem aligned_join_exact (L : Lawful D Rep) (HC : C.Lawful D Rep) {its : List (Item σ)} {ms : List Meaning}
    (a : AlignFmt) (n : Nat) (ha : CInt.InI32 a.width)
    (h : AllMean τ D Rep a.width its ms) (hroom : (total ms).room ≤ wmax ∨ max 0 a.width + (total ms).cost ≤ wmax)
    (hn : FillCount a.width (total ms).width n) (p : Pre) (hacc : p.acc = none) :
    ∃ pr, (alignedJoin D C a its).make p = some (p.addSize (padded C.encodeChar a n (total ms).text).length, pr) ∧
      Prints τ D Rep pr (padded C.encodeChar a n (total ms).text) := by
  obtain ⟨p', pr, e, hpr, rfl⟩ := alignedJoin_noWidth L HC a n ha h hroom hn p hacc
  exact ⟨pr, e, hpr⟩

/-- C39: and when the width is demanded too (because the join is itself inside of an aligned join, say), with a limit
that is not so great that the calculation overflows, it prints the same, and the width reported is that of the members
and the fill characters. -/
theorem aligned_join_exact_partial (L : Lawful D Rep) (HC : C.Lawful D Rep) {B : Int} {its : List (Item σ)}
    {ms : List Meaning} (a : AlignFmt) (n : Nat) (ha : 0 ≤ a.width) (haw : a.width ≤ wmax)
    (h : AllMean τ D Rep (max B a.width) its ms)
    (hroom : (total ms).room ≤ wmax ∨ max B a.width + (total ms).cost ≤ wmax)
    (hn : FillCount a.width (total ms).width n) (hlim : max B a.width + n * 65536 ≤ wmax)
    (hover : B + min (total ms).width (max B a.width + (total ms).cost) - a.width ≤ wmax) :
    (alignedJoin D C a its).Means τ D Rep B ((total ms).pad C.encodeChar a n) :=
  alignedJoin_means L HC a n ha haw h hroom hn hlim hover

/-- C39 fails for the width reported when the limit is the default one, the greatest width_t: the width of
join_right(10)(123) is reported as 3 because of a saturated addition. -/
theorem join_width_wrong :
    ((alignedJoin Dest.Maker.dest (utf Dest.Maker.dest .utf8) ⟨0x20, .right, 10 * 65536⟩
      [intItem Dest.Maker.dest ⟨true, 4, 123⟩]).make ⟨none, some .default⟩).bind (·.1.accumulated) = some (3 * 65536) := by
  decide +kernel

/-- And there the calculation overflows if the members are wider than the width asked for. -/
theorem join_width_overflow :
    ((alignedJoin Dest.Maker.dest (utf Dest.Maker.dest .utf8) ⟨0x20, .right, 2 * 65536⟩
      [intItem Dest.Maker.dest ⟨true, 4, 123⟩]).make ⟨none, some .default⟩).isNone := by
  decide +kernel

/-- the theorems apply to join_right(10)(123, true) -/
example : ∃ ms n, AllMean true Dest.Maker.dest (fun s t => Dest.Maker.Rep s t) (10 * 65536)
      [intItem Dest.Maker.dest ⟨true, 4, 123⟩, boolItem Dest.Maker.dest .lower true] ms ∧
    (total ms).room ≤ wmax ∧ FillCount (10 * 65536) (total ms).width n ∧ n = 3 ∧
    padded (utf Dest.Maker.dest .utf8).encodeChar ⟨0x20, .right, 10 * 65536⟩ n (total ms).text =
      "   123true".toList.map Char.toNat := by
  refine ⟨_, 3, .cons (intItem_means Dest.Maker.lawful _ (fun c => [c]) .lower ⟨true, 4, 123⟩ (by decide))
    (.cons (boolItem_means Dest.Maker.lawful _ .lower true) .nil), ?_, ?_, rfl, ?_⟩ <;> decide +kernel

/-- C39: a join without alignment is its members, one after the other. -/
theorem join_exact (L : Lawful D Rep) {B : Int} {its : List (Item σ)} {ms : List Meaning} (h : AllMean τ D Rep B its ms) :
    (join D its).Means τ D Rep B (total ms) := join_means L h

end Strf.Print

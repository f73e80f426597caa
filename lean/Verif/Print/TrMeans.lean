import Verif.Print.TrLemmas
/-!
The premeasurements of tr-strings, and tr-strings as items.
-/
namespace Strf.Print
open Strf.Tr
open Strf.Width
open Strf.Dest (Dest Lawful Prints)

variable {σ : Type} {D : Dest Nat σ} {Rep : σ → List Nat → Prop}

/-! ## Sizes -/

/-- the number of code units of the pieces -/
def piecesSize (texts : List (List Nat)) (repl : List Nat) : List Piece → Nat
  | [] => 0
  | .text s :: ps => s.length + piecesSize texts repl ps
  | .arg i :: ps => (texts.getD i repl).length + piecesSize texts repl ps

theorem piecesSize_eq (texts : List (List Nat)) (repl : List Nat) (segs : List Seg) :
    ∀ k run, piecesSize texts repl (pieces k run segs) = run.length + (expand texts repl k segs).length := by
  induction segs with
  | nil =>
    intro k run
    unfold pieces
    split_ifs with h
    · subst h; rfl
    · rfl
  | cons sg segs ih =>
    intro k run
    cases sg <;> simp only [pieces, expand, piecesSize, ih, List.length_append, List.length_cons, List.length_nil] <;> omega

theorem accountSize (texts : List (List Nat)) (repl : List Nat) :
    ∀ ps n, accountPieces (trPreSize (texts.map List.length) repl.length) ps n = some (n + piecesSize texts repl ps) := by
  intro ps
  induction ps with
  | nil => intro n; rfl
  | cons p ps ih =>
    intro n
    cases p with
    | text s =>
      simp only [accountPieces, trPreSize, Option.bind_some, Bool.false_eq_true, if_false, piecesSize]
      rw [← Nat.add_assoc]
      exact ih _
    | arg i =>
      simp only [accountPieces, trPreSize, Option.bind_some, Bool.false_eq_true, if_false, piecesSize]
      rw [dite_getD, size_getD, ← Nat.add_assoc]
      exact ih _

theorem trPreSize_spec (texts : List (List Nat)) (repl str : List Nat) (segs : List Seg) (h : Reads 0 str segs) :
    trDoPre (trPreSize (texts.map List.length) repl.length) str 0 = some (expand texts repl 0 segs).length := by
  unfold trDoPre
  rw [(trPre_spec _ (by
    intro i j hi hj
    funext n
    simp only [trPreSize] at hi hj ⊢
    rw [dif_neg (by omega), dif_neg (by omega)]) _ str 0 0 segs 0 (by omega)).1 h, accountSize, piecesSize_eq]
  simp

/-! ## Widths -/

/-- how much the calculation may exceed the limit -/
def piecesCost (slack : Int) (widths : List Int) : List Piece → Int
  | [] => 0
  | .text _ :: ps => slack + piecesCost slack widths ps
  | .arg i :: ps => widths.getD i 65536 + piecesCost slack widths ps

variable {W : WCalc} {slack : Int} {Ok : List Nat → Prop} {tw : List Nat → Int} {widths : List Int}

theorem getD_nonneg (hn : ∀ w ∈ widths, 0 ≤ w) (i : Nat) : 0 ≤ widths.getD i 65536 := by
  by_cases h : i < widths.length
  · rw [← dite_getD, dif_pos h]; exact hn _ (List.getElem_mem h)
  · rw [getD_ge _ _ _ (by omega)]; omega

theorem pieces_nonneg (HW : W.Measures slack Ok tw) (hn : ∀ w ∈ widths, 0 ≤ w) (ps : List Piece) :
    0 ≤ Tr.width tw widths 65536 ps ∧ 0 ≤ piecesCost slack widths ps := by
  have hs := HW.slack0
  induction ps with
  | nil => simp [Tr.width, piecesCost]
  | cons p ps ih =>
    cases p with
    | text s => have := HW.nonneg s; simp only [Tr.width, piecesCost]; omega
    | arg i => have := getD_nonneg hn i; simp only [Tr.width, piecesCost]; omega

/-- the pieces of text that the width calculator is used on -/
def TextsOk (Ok : List Nat → Prop) (ps : List Piece) : Prop := ∀ s, Piece.text s ∈ ps → Ok s

/-- `w'` is the result of adding `T` to `w` with the limit `L`, up to the `cost` -/
def Added (w w' T L cost : Int) : Prop :=
  w ≤ w' ∧ w' ≤ w + T ∧ w' ≤ max w L + cost ∧ (w + T ≤ L → w' = w + T) ∧ (L ≤ w + T → L ≤ w')

theorem ofInt_one : Width.ofInt 1 = 65536 := by decide

theorem accountWidth (HW : W.Measures slack Ok tw) (hn : ∀ w ∈ widths, 0 ≤ w) (L : Int) (h0 : 0 ≤ L) (h1 : L ≤ wmax) :
    ∀ (ps : List Piece) (w : Int), TextsOk Ok ps → 0 ≤ w → w ≤ wmax →
      (w + Tr.width tw widths 65536 ps ≤ wmax ∨ max w L + piecesCost slack widths ps ≤ wmax) →
      ∃ w', accountPieces (trPreWidth W widths L) ps w = some w' ∧
        Added w w' (Tr.width tw widths 65536 ps) L (piecesCost slack widths ps) := by
  have hs := HW.slack0
  have hwm : wmax = 2147483647 := rfl
  have hwn : wmin = -2147483648 := rfl
  intro ps
  induction ps with
  | nil => intro w _ _ _ _; exact ⟨w, rfl, by unfold Added; simp only [Tr.width, piecesCost]; omega⟩
  | cons p ps ih =>
    intro w hok hw hwx hroom
    have hok' : TextsOk Ok ps := fun s hm => hok s (List.mem_cons_of_mem _ hm)
    obtain ⟨p1, p2⟩ := pieces_nonneg (widths := widths) HW hn ps
    cases p with
    | text s =>
      have g0 := HW.nonneg s
      simp only [Tr.width, piecesCost] at hroom ⊢
      simp only [accountPieces, trPreWidth]
      by_cases hlt : w < L
      · rw [if_pos hlt]
        unfold Width.sub CInt.chk32
        rw [if_pos (by omega)]
        simp only [Option.bind_some]
        obtain ⟨x, e1, x1, x2, x3, x4, x5, x6⟩ := HW.strWidth s (hok s (List.mem_cons_self ..)) (L - w) (by omega) (by omega)
        rw [e1]
        simp only [Option.bind_some]
        unfold Width.add CInt.chk32
        rw [if_pos (by omega)]
        simp only [Option.bind_some, Option.map_some]
        by_cases hst : w + x ≥ L
        · rw [if_pos (by simpa using hst)]
          exact ⟨_, rfl, by unfold Added; omega⟩
        · rw [if_neg (by simpa using hst)]
          have hx := x1 (by omega)
          obtain ⟨w', e2, a⟩ := ih (w + x) hok' (by omega) (by omega) (by omega)
          refine ⟨w', e2, ?_⟩
          unfold Added at a ⊢
          omega
      · rw [if_neg hlt]
        simp only [Option.bind_some, Bool.false_eq_true, if_false]
        obtain ⟨w', e2, a⟩ := ih w hok' hw hwx (by omega)
        refine ⟨w', e2, ?_⟩
        unfold Added at a ⊢
        omega
    | arg i =>
      have g0 := getD_nonneg hn i
      simp only [Tr.width, piecesCost] at hroom ⊢
      simp only [accountPieces, trPreWidth]
      by_cases hlt : w < L
      · rw [if_pos hlt, ofInt_one, dite_getD]
        unfold Width.add CInt.chk32
        rw [if_pos (by omega)]
        simp only [Option.bind_some, Option.map_some]
        by_cases hst : w + widths.getD i 65536 ≥ L
        · rw [if_pos (by simpa using hst)]
          exact ⟨_, rfl, by unfold Added; omega⟩
        · rw [if_neg (by simpa using hst)]
          obtain ⟨w', e2, a⟩ := ih (w + widths.getD i 65536) hok' (by omega) (by omega) (by omega)
          refine ⟨w', e2, ?_⟩
          unfold Added at a ⊢
          omega
      · rw [if_neg hlt]
        simp only [Option.bind_some, Bool.false_eq_true, if_false]
        obtain ⟨w', e2, a⟩ := ih w hok' hw hwx (by omega)
        refine ⟨w', e2, ?_⟩
        unfold Added at a ⊢
        omega

theorem accountSizeWidth (HW : W.Measures slack Ok tw) (hn : ∀ w ∈ widths, 0 ≤ w) (L : Int) (h0 : 0 ≤ L) (h1 : L ≤ wmax)
    (texts : List (List Nat)) (repl : List Nat) (hlen : texts.length = widths.length) :
    ∀ (ps : List Piece) (n : Nat) (w : Int), TextsOk Ok ps → 0 ≤ w → w ≤ wmax →
      (w + Tr.width tw widths 65536 ps ≤ wmax ∨ max w L + piecesCost slack widths ps ≤ wmax) →
      ∃ w', accountPieces (trPreSizeWidth W (texts.map List.length) widths repl.length L) ps (n, w) =
          some (n + piecesSize texts repl ps, w') ∧
        Added w w' (Tr.width tw widths 65536 ps) L (piecesCost slack widths ps) := by
  have hs := HW.slack0
  have hwm : wmax = 2147483647 := rfl
  have hwn : wmin = -2147483648 := rfl
  intro ps
  induction ps with
  | nil => intro n w _ _ _ _; exact ⟨w, rfl, by unfold Added; simp only [Tr.width, piecesCost]; omega⟩
  | cons p ps ih =>
    intro n w hok hw hwx hroom
    have hok' : TextsOk Ok ps := fun s hm => hok s (List.mem_cons_of_mem _ hm)
    obtain ⟨p1, p2⟩ := pieces_nonneg (widths := widths) HW hn ps
    cases p with
    | text s =>
      have g0 := HW.nonneg s
      simp only [Tr.width, piecesCost] at hroom ⊢
      simp only [accountPieces, trPreSizeWidth]
      unfold Width.sub CInt.chk32
      rw [if_pos (by omega)]
      simp only [Option.bind_some]
      obtain ⟨x, e1, x1, x2, x3, x4, x5, x6⟩ := HW.strWidth s (hok s (List.mem_cons_self ..)) (L - w) (by omega) (by omega)
      rw [e1]
      simp only [Option.bind_some]
      unfold Width.add CInt.chk32
      rw [if_pos (by omega)]
      simp only [Option.bind_some, Option.map_some, Bool.false_eq_true, if_false]
      obtain ⟨w', e2, a⟩ := ih (n + s.length) (w + x) hok' (by omega) (by omega) (by omega)
      refine ⟨w', by simp only [piecesSize]; rw [← Nat.add_assoc]; exact e2, ?_⟩
      unfold Added at a ⊢
      omega
    | arg i =>
      have g0 := getD_nonneg hn i
      simp only [Tr.width, piecesCost] at hroom ⊢
      have key : (trPreSizeWidth W (texts.map List.length) widths repl.length L).accountArg i (n, w) =
          some (false, (n + (texts.getD i repl).length, w + widths.getD i 65536)) := by
        simp only [trPreSizeWidth]
        rw [← size_getD]
        by_cases h : i < widths.length
        · rw [dif_pos ⟨by rw [List.length_map]; omega, h⟩, ← dite_getD widths, dif_pos h, ← dite_getD (texts.map _),
            dif_pos (by rw [List.length_map]; omega)]
          rw [← dite_getD, dif_pos h] at hroom g0
          unfold Width.add CInt.chk32
          rw [if_pos (by omega)]
          rfl
        · rw [getD_ge _ _ _ (by omega)] at hroom
          rw [dif_neg (fun g => h g.2), getD_ge widths _ _ (by omega), getD_ge _ _ _ (by rw [List.length_map]; omega), ofInt_one]
          unfold Width.add CInt.chk32
          rw [if_pos (by omega)]
          rfl
      simp only [accountPieces]
      rw [key]
      simp only [Option.bind_some, Bool.false_eq_true, if_false]
      obtain ⟨w', e2, a⟩ := ih (n + (texts.getD i repl).length) (w + widths.getD i 65536) hok' (by omega) (by omega) (by omega)
      refine ⟨w', by simp only [piecesSize]; rw [← Nat.add_assoc]; exact e2, ?_⟩
      unfold Added at a ⊢
      omega

/-! ## The item -/

/-- the width of a tr-string -/
def trWidth (tw : List Nat → Int) (ms : List Meaning) (segs : List Seg) : Int :=
  Tr.width tw (ms.map (·.width)) 65536 (pieces 0 [] segs)

/-- what strf::tr(str, args...) stands for, if `str` consists of `segs` and the arguments stand for `ms` -/
def Meaning.tr (tw : List Nat → Int) (slack : Int) (repl : List Nat) (ms : List Meaning) (segs : List Seg) : Meaning :=
  ⟨expand (ms.map (·.text)) repl 0 segs, trWidth tw ms segs, trWidth tw ms segs,
    piecesCost slack (ms.map (·.width)) (pieces 0 [] segs)⟩

/-- premeasurements of one argument -/
theorem fresh_make {it : Item σ} {m : Meaning} (h : it.Means τ D Rep wmax m) (hr : m.room ≤ wmax) (p : Pre) :
    ∃ q pr, it.make p.fresh = some (q, pr) ∧ Prints τ D Rep pr m.text ∧ (p.size ≠ none → q.accSize = m.text.length) ∧
      (p.acc ≠ none → q.accWidth = m.width) := by
  obtain ⟨h0, h1, h2, h3⟩ := h
  have hwm : wmax = 2147483647 := rfl
  obtain ⟨q, pr, e1, e2, g1, g2, g3⟩ := h3 p.fresh (by
    intro a ha
    unfold Pre.fresh at ha
    cases hp : p.acc with
    | none => rw [hp] at ha; cases ha
    | some b =>
      rw [hp] at ha
      simp only [Option.map_some, Option.some.injEq] at ha
      subst ha
      refine ⟨⟨by simp [Acc.default], by simp [Acc.default, wmax], ?_⟩, by simp [Acc.default], .inl ?_⟩
      · simp [Acc.default, CInt.InI32, wmax]
      · simp only [Acc.default]; omega)
  refine ⟨q, pr, e1, e2, ?_, ?_⟩
  · intro hp
    unfold Pre.accSize
    rw [g1]
    unfold Pre.fresh
    cases hs : p.size with
    | none => exact absurd hs hp
    | some n => simp
  · intro hp
    cases hs : p.acc with
    | none => exact absurd hs hp
    | some b =>
      obtain ⟨a', k1, k2, k3, k4, k5, k6, k7⟩ := g3 Acc.default (by unfold Pre.fresh; rw [hs]; rfl)
      simp only [Acc.default] at *
      unfold Pre.accWidth Acc.accumulated
      rw [k1]
      dsimp only
      rw [k2, if_pos (by omega)]
      have := k6 (by omega)
      omega

theorem makeEach_spec {its : List (Item σ)} {ms : List Meaning} (h : AllMean τ D Rep wmax its ms) (hr : ∀ m ∈ ms, m.room ≤ wmax)
    (p : Pre) : ∃ rs, makeEach p.fresh its = some rs ∧ ArgsPrint τ D Rep (rs.map fun r => r.2) (ms.map (·.text)) ∧
      rs.length = ms.length ∧
      (p.size ≠ none → (rs.map fun r => r.1.accSize) = (ms.map (·.text)).map List.length) ∧
      (p.acc ≠ none → (rs.map fun r => r.1.accWidth) = ms.map (·.width)) := by
  induction h with
  | nil => exact ⟨[], rfl, ⟨rfl, fun i h => by simp at h⟩, rfl, fun _ => rfl, fun _ => rfl⟩
  | @cons it its m ms h1 hs ih =>
    obtain ⟨q, pr, e1, e2, e3, e4⟩ := fresh_make h1 (hr m (List.mem_cons_self ..)) p
    obtain ⟨rs, f1, f2, f3, f4, f5⟩ := ih fun x hx => hr x (List.mem_cons_of_mem _ hx)
    refine ⟨(q, pr) :: rs, ?_, ⟨?_, ?_⟩, by simp [f3], ?_, ?_⟩
    · simp only [makeEach, e1, Option.bind_some, f1, Option.map_some]
    · simp only [List.map_cons, List.length_cons]
      have := f2.len
      omega
    · intro i hi d
      cases i with
      | zero => exact e2
      | succ i =>
        simp only [List.map_cons, List.getElem_cons_succ, List.getD_cons_succ]
        exact f2.prints i (by simpa using hi) d
    · intro hp; simp only [List.map_cons, e3 hp, f4 hp]
    · intro hp; simp only [List.map_cons, e4 hp, f5 hp]

/-- Strings with arguments are items: what is printed, its size and its width. -/
theorem tr_means (L : Lawful D Rep) (HW : W.Measures slack Ok tw) {R : Repl σ} {repl : List Nat} (HR : R.Lawful D Rep repl)
    (B : Int) {its : List (Item σ)} {ms : List Meaning} (h : AllMean τ D Rep wmax its ms) (hr : ∀ m ∈ ms, m.room ≤ wmax)
    {str : List Nat} {segs : List Seg} (hs : Reads 0 str segs) (hok : TextsOk Ok (pieces 0 [] segs)) :
    (trItem D W R str its).Means τ D Rep B (.tr tw slack repl ms segs) := by
  have hwm : wmax = 2147483647 := rfl
  have hn : ∀ w ∈ ms.map (·.width), 0 ≤ w := by
    intro w hw
    obtain ⟨m, hm, rfl⟩ := List.mem_map.1 hw
    clear hw hr
    induction h with
    | nil => cases hm
    | cons h1 _ ih =>
      cases hm with
      | head => exact h1.1
      | tail _ hm => exact ih hm
  obtain ⟨n1, n2⟩ := pieces_nonneg HW hn (pieces 0 [] segs)
  refine ⟨n1, Int.le_refl _, n2, ?_⟩
  intro p hp
  obtain ⟨rs, e1, e2, e3, e4, e5⟩ := makeEach_spec h hr p
  simp only [trItem]
  rw [e1]
  simp only [Option.bind_some]
  have hpr : Prints τ D Rep (fun s => (trStringWrite D R (rs.map fun r => r.2) str (s, [])).map (·.1))
      (expand (ms.map (·.text)) repl 0 segs) := by
    intro s t hrep
    have hw := (trWrite_spec L HR e2 str.length (str.length + 1) str 0 0 segs (by omega)).1 (by omega) hs (s, []) t hrep
    obtain ⟨s', w1, w2, w3⟩ := hw
    refine ⟨s', ?_, w2, w3⟩
    unfold trStringWrite
    rw [Nat.zero_min] at w1
    dsimp only
    rw [w1]; rfl
  have hP : ∀ L', ∀ i j, (trPreWidth W (ms.map (·.width)) L').numArgs ≤ i → (trPreWidth W (ms.map (·.width)) L').numArgs ≤ j →
      (trPreWidth W (ms.map (·.width)) L').accountArg i = (trPreWidth W (ms.map (·.width)) L').accountArg j := by
    intro L' i j hi hj
    funext w
    simp only [trPreWidth] at hi hj ⊢
    rw [dite_getD, dite_getD, getD_ge _ _ _ hi, getD_ge _ _ _ hj]
  have hP2 : ∀ L', ∀ i j, (trPreSizeWidth W ((ms.map (·.text)).map List.length) (ms.map (·.width)) repl.length L').numArgs ≤ i →
      (trPreSizeWidth W ((ms.map (·.text)).map List.length) (ms.map (·.width)) repl.length L').numArgs ≤ j →
      (trPreSizeWidth W ((ms.map (·.text)).map List.length) (ms.map (·.width)) repl.length L').accountArg i =
      (trPreSizeWidth W ((ms.map (·.text)).map List.length) (ms.map (·.width)) repl.length L').accountArg j := by
    intro L' i j hi hj
    funext w
    simp only [trPreSizeWidth] at hi hj ⊢
    rw [dif_neg (by omega), dif_neg (by omega)]
  have hsize := piecesSize_eq (ms.map (·.text)) repl segs 0 []
  simp only [List.length_nil, Nat.zero_add] at hsize
  rw [HR.size]
  cases hps : p.size with
  | none =>
    cases hpa : p.acc with
    | none =>
      simp only [trMake, hps, hpa, Option.map_some]
      exact ⟨p, _, rfl, hpr, by simp [hps], fun _ => hpa, fun a ha => by rw [hpa] at ha; cases ha⟩
    | some a =>
      obtain ⟨ha, hb, hroom⟩ := hp a hpa
      obtain ⟨k1, k2, k3⟩ := ha
      have k3' := k3
      unfold CInt.InI32 at k3'
      rw [e5 (by simp [hpa])]
      simp only [trMake, hps, hpa]
      rw [Pre.remaining_eq hpa ⟨k1, k2, k3⟩]
      simp only [Option.bind_some]
      simp only [Meaning.tr] at hroom
      obtain ⟨w', r1, r2⟩ := accountWidth HW hn (max 0 (a.limit - a.width)) (by omega) (by omega) (pieces 0 [] segs) 0 hok
        (by omega) (by omega) (by unfold trWidth at hroom; omega)
      have : trDoPre (trPreWidth W (ms.map (·.width)) (max 0 (a.limit - a.width))) str 0 = some w' := by
        unfold trDoPre
        rw [(trPre_spec _ (hP _) _ str 0 0 segs 0 (by omega)).1 hs, r1]
      rw [this]
      simp only [Option.bind_some]
      unfold Added at r2
      unfold trWidth at hroom
      rw [Pre.addWidth_eq hpa w' (by unfold CInt.InI32; omega)]
      simp only [Option.map_some]
      refine ⟨_, _, rfl, hpr, by simp [hps], (fun g => by rw [hpa] at g; cases g), ?_⟩
      intro a2 ha2
      rw [hpa] at ha2; cases ha2
      refine ⟨_, rfl, rfl, ?_⟩
      simp only [Meaning.tr]
      unfold trWidth
      omega
  | some z =>
    rw [e4 (by simp [hps])]
    cases hpa : p.acc with
    | none =>
      simp only [trMake, hps, hpa]
      rw [trPreSize_spec _ _ str segs hs]
      simp only [Option.map_some]
      refine ⟨_, _, rfl, hpr, rfl, fun _ => hpa, fun a ha => by rw [hpa] at ha; cases ha⟩
    | some a =>
      obtain ⟨ha, hb, hroom⟩ := hp a hpa
      obtain ⟨k1, k2, k3⟩ := ha
      have k3' := k3
      unfold CInt.InI32 at k3'
      rw [e5 (by simp [hpa])]
      simp only [trMake, hps, hpa]
      rw [Pre.remaining_eq hpa ⟨k1, k2, k3⟩]
      simp only [Option.bind_some]
      simp only [Meaning.tr] at hroom
      obtain ⟨w', r1, r2⟩ := accountSizeWidth HW hn (max 0 (a.limit - a.width)) (by omega) (by omega) (ms.map (·.text)) repl
        (by simp) (pieces 0 [] segs) 0 0 hok (by omega) (by omega) (by unfold trWidth at hroom; omega)
      have : trDoPre (trPreSizeWidth W ((ms.map (·.text)).map List.length) (ms.map (·.width)) repl.length
          (max 0 (a.limit - a.width))) str (0, 0) = some ((expand (ms.map (·.text)) repl 0 segs).length, w') := by
        unfold trDoPre
        rw [(trPre_spec _ (hP2 _) _ str 0 0 segs (0, 0) (by omega)).1 hs, r1, hsize, Nat.zero_add]
      rw [this]
      simp only [Option.bind_some]
      unfold Added at r2
      unfold trWidth at hroom
      rw [Pre.addWidth_eq (p := p.addSize (expand (ms.map (·.text)) repl 0 segs).length) (a := a) hpa w'
        (by unfold CInt.InI32; omega)]
      simp only [Option.map_some]
      refine ⟨_, _, rfl, hpr, rfl, (fun g => by rw [hpa] at g; cases g), ?_⟩
      intro a2 ha2
      rw [hpa] at ha2; cases ha2
      refine ⟨_, rfl, rfl, ?_⟩
      simp only [Meaning.tr]
      unfold trWidth
      omega

end Strf.Print

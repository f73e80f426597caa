import Verif.Ranges.Model
import Verif.Lib.Props
/-!
# C92: making ranges and going through them

Which elements a range has, that the function given to `range` is called on each of them once, in order, each time that the range is gone through, and that the
printers of range.hpp, which use iterators, are the items of Print/Ranges.lean, which C51, C73 and C83 are about.
-/
namespace Strf.Ranges
open Strf.Print (Item Pre WCalc addSepWidth rangeMeasure Meaning)
open Strf.Dest (Dest Lawful Prints)

variable {σ α ω : Type} {op : ω → α → ω × Item σ}

/-! ## The loops, as lists -/

theorem returned_append {β : Type} (op : ω → α → ω × β) (w : ω) (xs ys : List α) :
    returned op w (xs ++ ys) = returned op w xs ++ returned op (after op w xs) ys := by
  induction xs generalizing w with
  | nil => rfl
  | cons x xs ih => simp [returned, after, ih]

theorem after_append {β : Type} (op : ω → α → ω × β) (w : ω) (xs ys : List α) : after op w (xs ++ ys) = after op (after op w xs) ys := by
  induction xs generalizing w with
  | nil => rfl
  | cons x xs ih => simp [after, ih]

theorem returned_length {β : Type} (op : ω → α → ω × β) (w : ω) (xs : List α) : (returned op w xs).length = xs.length := by
  induction xs generalizing w with
  | nil => rfl
  | cons x xs ih => simp [returned, ih]

/-- the elements between two positions -/
theorem slice_cons {mem : List α} {it last : Nat} (h : it < last) (hl : last ≤ mem.length) :
    ∃ x, mem[it]? = some x ∧ (mem.take last).drop it = x :: (mem.take last).drop (it + 1) := by
  have h1 : it < mem.length := by omega
  refine ⟨mem[it], List.getElem?_eq_getElem h1, ?_⟩
  rw [List.drop_eq_getElem_cons (by simp; omega)]
  simp

theorem slice_nil {mem : List α} (last : Nat) : (mem.take last).drop last = [] := by simp

/-- The loop of the premeasurements is the one over the list of what the function returns; how often it has been called. -/
theorem measureLoop_eq (mem : List α) (last : Nat) (hl : last ≤ mem.length) : ∀ (fuel it : Nat), it ≤ last → last < it + fuel → ∀ (w : ω) (p : Pre),
    measureLoop op mem last fuel it w p =
      (rangeMeasure (returned op w ((mem.take last).drop it)) p).map fun z => (z.1, z.2, after op w (((mem.take last).drop it).take z.2)) := by
  intro fuel
  induction fuel with
  | zero => intro it h1 h2; omega
  | succ fuel ih =>
    intro it h1 h2 w p
    unfold measureLoop
    by_cases hit : it = last
    · rw [if_neg (fun h => h.1 hit), hit, slice_nil]
      simp [returned, rangeMeasure, after]
    · obtain ⟨x, hx, hs⟩ := slice_cons (it := it) (by omega) hl
      rw [hs]
      simp only [returned]
      unfold rangeMeasure
      by_cases hc : (p.hasRemaining || p.size.isSome) = true
      · rw [if_pos ⟨hit, hc⟩, if_pos hc, hx]
        dsimp only
        cases hm : (op w x).2.make p with
        | none => rfl
        | some q =>
          simp only [Option.bind_some]
          rw [ih (it + 1) (by omega) (by omega)]
          cases rangeMeasure (returned op (op w x).1 ((mem.take last).drop (it + 1))) q.1 with
          | none => rfl
          | some z => simp [after]
      · rw [if_neg (fun h => hc h.2), if_neg hc]
        simp [after]

/-- The loop of the call operator is the one over the list; the function has been called on the first elements, and on all if the destination is still good. -/
theorem printLoop_eq (D : Dest Nat σ) (mem : List α) (last : Nat) (hl : last ≤ mem.length) : ∀ (fuel it : Nat), it ≤ last → last < it + fuel → ∀ (w : ω) (s : σ),
    (printLoop D op mem last fuel it w s).map (·.1) = Print.rangePrint D (returned op w ((mem.take last).drop it)) s ∧
    ∀ s' w', printLoop D op mem last fuel it w s = some (s', w') → ∃ k, w' = after op w (((mem.take last).drop it).take k) ∧
      (D.good s' = true → k = last - it) := by
  intro fuel
  induction fuel with
  | zero => intro it h1 h2; omega
  | succ fuel ih =>
    intro it h1 h2 w s
    unfold printLoop
    by_cases hit : it = last
    · rw [if_neg (fun h => h.1 hit), hit, slice_nil]
      refine ⟨rfl, ?_⟩
      rintro s' w' ⟨⟩
      exact ⟨0, rfl, fun _ => by omega⟩
    · obtain ⟨x, hx, hs⟩ := slice_cons (it := it) (by omega) hl
      rw [hs]
      simp only [returned]
      unfold Print.rangePrint
      by_cases hc : D.good s = true
      · rw [if_pos ⟨hit, hc⟩, if_pos hc, hx]
        dsimp only
        cases hm : (op w x).2.print s with
        | none => exact ⟨rfl, fun _ _ h => by cases h⟩
        | some s1 =>
          obtain ⟨e, hk⟩ := ih (it + 1) (by omega) (by omega) (op w x).1 s1
          refine ⟨e, fun s' w' h => ?_⟩
          obtain ⟨k, h1, h2⟩ := hk s' w' h
          exact ⟨k + 1, by simpa [after] using h1, fun g => by have := h2 g; omega⟩
      · rw [if_neg (fun h => hc h.2), if_neg hc]
        refine ⟨rfl, ?_⟩
        rintro s' w' ⟨⟩
        exact ⟨0, by simp [after], fun g => absurd g hc⟩

theorem sepLoop_eq (D : Dest Nat σ) (sep : List Nat) (mem : List α) (last : Nat) (hl : last ≤ mem.length) :
    ∀ (fuel it : Nat), it ≤ last → last < it + fuel → ∀ (w : ω) (s : σ),
    (sepLoop D sep op mem last fuel it w s).map (·.1) = Print.sepPrintRest D sep (returned op w ((mem.take last).drop it)) s ∧
    ∀ s' w', sepLoop D sep op mem last fuel it w s = some (s', w') → ∃ k, w' = after op w (((mem.take last).drop it).take k) ∧
      (D.good s' = true → k = last - it) := by
  intro fuel
  induction fuel with
  | zero => intro it h1 h2; omega
  | succ fuel ih =>
    intro it h1 h2 w s
    unfold sepLoop
    by_cases hit : it = last
    · rw [if_neg (fun h => h.1 hit), hit, slice_nil]
      refine ⟨rfl, ?_⟩
      rintro s' w' ⟨⟩
      exact ⟨0, rfl, fun _ => by omega⟩
    · obtain ⟨x, hx, hs⟩ := slice_cons (it := it) (by omega) hl
      rw [hs]
      simp only [returned]
      unfold Print.sepPrintRest
      by_cases hc : D.good s = true
      · rw [if_pos ⟨hit, hc⟩, if_pos hc]
        cases hw : Dest.write D s sep with
        | none => exact ⟨rfl, fun _ _ h => by cases h⟩
        | some s0 =>
          simp only [Option.bind_some, hx]
          cases hm : (op w x).2.print s0 with
          | none => exact ⟨rfl, fun _ _ h => by cases h⟩
          | some s1 =>
            obtain ⟨e, hk⟩ := ih (it + 1) (by omega) (by omega) (op w x).1 s1
            refine ⟨e, fun s' w' h => ?_⟩
            obtain ⟨k, h1, h2⟩ := hk s' w' h
            exact ⟨k + 1, by simpa [after] using h1, fun g => by have := h2 g; omega⟩
      · rw [if_neg (fun h => hc h.2), if_neg hc]
        refine ⟨rfl, ?_⟩
        rintro s' w' ⟨⟩
        exact ⟨0, by simp [after], fun g => absurd g hc⟩

/-- the iterators that are kept delimit the elements that are meant -/
theorem Given.range_eq {g : Given α} (h : g.Valid) : g.range.first ≤ g.range.last ∧ g.range.last ≤ g.range.mem.length ∧
    (g.range.mem.take g.range.last).drop g.range.first = g.elements := by
  cases g with
  | iterators seq b e => exact ⟨h.1, h.2, rfl⟩
  | _ seq => exact ⟨by simp [Given.range], by simp [Given.range], by simp [Given.range, Given.elements]⟩

theorem sepPrint_eq (D : Dest Nat σ) (sep : List Nat) {g : Given α} (h : g.Valid) (w : ω) (s : σ) :
    (sepPrint D sep op g.range w s).map (·.1) = Print.sepPrint D sep (returned op w g.elements) s ∧
    ∀ s' w', sepPrint D sep op g.range w s = some (s', w') → ∃ k, w' = after op w (g.elements.take k) ∧
      (D.good s' = true → k = g.elements.length) := by
  obtain ⟨h1, h2, h3⟩ := g.range_eq h
  have hlen : g.elements.length = g.range.last - g.range.first := by rw [← h3]; simp; omega
  unfold sepPrint
  by_cases hit : g.range.first = g.range.last
  · have : g.elements = [] := List.length_eq_zero_iff.mp (by omega)
    rw [if_neg (fun h => h hit), this]
    refine ⟨rfl, ?_⟩
    rintro s' w' ⟨⟩
    exact ⟨0, rfl, fun _ => rfl⟩
  · obtain ⟨x, hx, hs⟩ := slice_cons (mem := g.range.mem) (it := g.range.first) (last := g.range.last) (by omega) h2
    rw [if_pos hit, hx, ← h3, hs]
    simp only [returned, Print.sepPrint]
    cases hm : (op w x).2.print s with
    | none => exact ⟨rfl, fun _ _ h => by cases h⟩
    | some s1 =>
      obtain ⟨e, hk⟩ := sepLoop_eq D sep g.range.mem g.range.last h2 (g.range.mem.length + 1) (g.range.first + 1) (by omega) (by omega) (op w x).1 s1 (op := op)
      refine ⟨e, fun s' w' h => ?_⟩
      obtain ⟨k, h4, h5⟩ := hk s' w' h
      refine ⟨k + 1, by simpa [after] using h4, fun g' => ?_⟩
      have := h5 g'
      simp
      omega

/-! ## C92: the elements -/

/-- C92: `range`, `fmt_range` and `range` with a function: the printer, however the elements are given, is that of the list of the elements that are meant. -/
theorem range_elements (D : Dest Nat σ) (f : α → Item σ) {g : Given α} (h : g.Valid) :
    (rangePrinter D (pure f) g.range).item = Print.range D (g.elements.map f) := by
  have hr : ∀ xs : List α, returned (pure f) () xs = xs.map f := by
    intro xs; induction xs with
    | nil => rfl
    | cons x xs ih => simp [returned, pure, ih]
  obtain ⟨h1, h2, h3⟩ := g.range_eq h
  have hp : (fun s => ((rangePrinter D (pure f) g.range).print () s).map (·.1)) = Print.rangePrint D (g.elements.map f) := by
    funext s
    rw [← hr, ← h3]
    exact (printLoop_eq D g.range.mem g.range.last h2 (g.range.mem.length + 1) g.range.first h1 (by omega) () s).1
  unfold Printer.item Print.range
  congr 1
  funext p
  rw [hp]
  simp only [rangePrinter]
  split
  · rfl
  · rw [measureLoop_eq g.range.mem g.range.last h2 _ _ h1 (by omega), h3, hr]
    simp [Function.comp_def]

/-- C92: the same for `separated_range` and `fmt_separated_range`. -/
theorem separated_elements (D : Dest Nat σ) (W : WCalc) (sep : List Nat) (f : α → Item σ) {g : Given α} (h : g.Valid) :
    (separatedPrinter D W sep (pure f) g.range).item = Print.separatedRange D W sep (g.elements.map f) ∧
    (fmtSeparatedPrinter D W sep (pure f) g.range).item = Print.fmtSeparatedRange D W sep (g.elements.map f) := by
  have hr : ∀ xs : List α, returned (pure f) () xs = xs.map f := by
    intro xs; induction xs with
    | nil => rfl
    | cons x xs ih => simp [returned, pure, ih]
  obtain ⟨h1, h2, h3⟩ := g.range_eq h
  have hp : (fun s => (sepPrint D sep (pure f) g.range () s).map (·.1)) = Print.sepPrint D sep (g.elements.map f) := by
    funext s
    rw [← hr]
    exact (sepPrint_eq D sep h () s).1
  have hm : ∀ p, measureLoop (pure f) g.range.mem g.range.last (g.range.mem.length + 1) g.range.first () p =
      (rangeMeasure (g.elements.map f) p).map fun z => (z.1, z.2, ()) := by
    intro p
    rw [measureLoop_eq g.range.mem g.range.last h2 _ _ h1 (by omega), h3, hr]
  constructor
  · unfold Printer.item Print.separatedRange
    congr 1
    funext p
    simp only [separatedPrinter]
    rw [hp, hm]
    split
    · rfl
    · unfold Print.sepMeasure
      cases rangeMeasure (g.elements.map f) p with
      | none => rfl
      | some z =>
        simp only [Option.map_some, Option.bind_some]
        split
        · rfl
        · simp [Function.comp_def]
  · unfold Printer.item Print.fmtSeparatedRange
    congr 1
    funext p
    simp only [fmtSeparatedPrinter]
    rw [hp, hm]
    split
    · rfl
    · unfold Print.fmtSepMeasure
      cases rangeMeasure (g.elements.map f) p with
      | none => rfl
      | some z =>
        simp only [Option.map_some, Option.bind_some]
        split
        · rfl
        · simp [Function.comp_def]

/-! ## C92: the calls of the function -/

variable {D : Dest Nat σ} {Rep : σ → List Nat → Prop} {B : Int}

/-- what is measured of the list is measured with the iterators, and the function has been called on the elements that were measured -/
theorem measure_state {g : Given α} (h : g.Valid) (w : ω) (p : Pre) {q : Pre} {k : Nat} (hm : rangeMeasure (returned op w g.elements) p = some (q, k)) :
    measureLoop op g.range.mem g.range.last (g.range.mem.length + 1) g.range.first w p = some (q, k, after op w (g.elements.take k)) := by
  obtain ⟨h1, h2, h3⟩ := g.range_eq h
  rw [measureLoop_eq g.range.mem g.range.last h2 _ _ h1 (by omega), h3, hm]
  rfl

/-- C92: a range is printed: the function, whatever its state, is called on each element in order, once; on some of the last ones it is not called if the destination
fails. The text is that of what it returns. -/
theorem function_called_once (L : Lawful D Rep) {g : Given α} (h : g.Valid) (w : ω) {ms : List Meaning} (hm : Print.AllMean τ D Rep B (returned op w g.elements) ms)
    (s : σ) (t : List Nat) (hs : Rep s t) :
    ∃ s' k, (rangePrinter D op g.range).print w s = some (s', after op w (g.elements.take k)) ∧ (D.good s' = true → k = g.elements.length) ∧
      Rep s' (t ++ (ms.map (·.text)).flatten) := by
  obtain ⟨h1, h2, h3⟩ := g.range_eq h
  obtain ⟨e, hk⟩ := printLoop_eq D g.range.mem g.range.last h2 (g.range.mem.length + 1) g.range.first h1 (by omega) w s (op := op)
  rw [h3] at e hk
  obtain ⟨s', e', r, _⟩ := Print.rangePrint_prints L hm s t hs
  rw [e'] at e
  cases hp : printLoop D op g.range.mem g.range.last (g.range.mem.length + 1) g.range.first w s with
  | none => rw [hp] at e; cases e
  | some z =>
    rw [hp] at e
    obtain ⟨s1, w1⟩ := z
    cases e
    obtain ⟨k, rfl, hk'⟩ := hk _ _ hp
    have key : ∀ l : List Meaning, (Print.total l).text = (l.map (·.text)).flatten := by
      intro l; induction l with
      | nil => rfl
      | cons m l ih => simp [Print.total, ih]
    rw [key] at r
    refine ⟨s1, k, hp, fun g' => ?_, r⟩
    rw [hk' g', ← h3]
    simp; omega

/-- C92: the same with separators. -/
theorem separated_function_called_once (L : Lawful D Rep) (W : WCalc) (sep : List Nat) {g : Given α} (h : g.Valid) (w : ω) {ms : List Meaning}
    (hm : Print.AllMean τ D Rep B (returned op w g.elements) ms) (s : σ) (t : List Nat) (hs : Rep s t) :
    ∃ s' k, (fmtSeparatedPrinter D W sep op g.range).print w s = some (s', after op w (g.elements.take k)) ∧ (D.good s' = true → k = g.elements.length) ∧
      Rep s' (t ++ sep.intercalate (ms.map (·.text))) := by
  obtain ⟨e, hk⟩ := sepPrint_eq D sep h w s (op := op)
  obtain ⟨s', e', r, _⟩ := Print.sepPrint_prints L sep 0 hm s t hs
  rw [e'] at e
  show ∃ s' k, sepPrint D sep op g.range w s = _ ∧ _
  cases hp : sepPrint D sep op g.range w s with
  | none => rw [hp] at e; cases e
  | some z =>
    rw [hp] at e
    obtain ⟨s1, w1⟩ := z
    cases e
    obtain ⟨k, rfl, hk'⟩ := hk _ _ hp
    exact ⟨s1, k, rfl, hk', r⟩

theorem means_length {its : List (Item σ)} {ms : List Meaning} (h : Print.AllMean τ D Rep B its ms) : its.length = ms.length := by
  induction h with
  | nil => rfl
  | cons _ _ ih => simp [ih]

/-- C92: the size of a range is demanded (as by `reserve_calc`): the function is called on all elements in order, once; the size is that of what it returns. -/
theorem function_measured {g : Given α} (h : g.Valid) (w : ω) {ms : List Meaning} (hm : Print.AllMean τ D Rep B (returned op w g.elements) ms) (n : Nat) :
    (rangePrinter D op g.range).measure w ⟨some n, none⟩ = some (⟨some (n + (ms.map (·.text)).flatten.length), none⟩, after op w g.elements) := by
  obtain ⟨q, k, e, ⟨g1, g2, _⟩, i, hk⟩ := Print.rangeMeasure_eq hm ⟨some n, none⟩ (fun a ha => by cases ha)
  have hq : q = ⟨some (n + (ms.map (·.text)).flatten.length), none⟩ := by
    have key : ∀ l : List Meaning, (Print.total l).text = (l.map (·.text)).flatten := by
      intro l; induction l with
      | nil => rfl
      | cons m l ih => simp [Print.total, ih]
    obtain ⟨a, b⟩ := q
    rw [key] at g1
    have h1 : a = some _ := g1
    have h2 : b = none := g2 rfl
    rw [h1, h2]
  have hk : k = g.elements.length := by
    rcases hk with hk | ⟨hk, _⟩
    · rw [hk, ← means_length hm, returned_length]
    · rw [hk] at i; cases i
  simp only [rangePrinter]
  rw [if_neg (by simp [Pre.idle]), measure_state h w _ e, hk, hq, List.take_length]
  rfl

/-- C92: the same with separators, for `fmt_separated_range` and for `separated_range` with a function. -/
theorem separated_function_measured (W : WCalc) (sep : List Nat) {g : Given α} (h : g.Valid) (w : ω) {ms : List Meaning}
    (hm : Print.AllMean τ D Rep B (returned op w g.elements) ms) (n : Nat) :
    (fmtSeparatedPrinter D W sep op g.range).measure w ⟨some n, none⟩ =
      some (⟨some (n + (sep.intercalate (ms.map (·.text))).length), none⟩, after op w g.elements) := by
  obtain ⟨q, k, e, ⟨g1, g2, _⟩, i, hk⟩ := Print.rangeMeasure_eq hm ⟨some n, none⟩ (fun a ha => by cases ha)
  have hq : q = ⟨some (n + (Print.total ms).text.length), none⟩ := by
    obtain ⟨a, b⟩ := q
    have h1 : a = some _ := g1
    have h2 : b = none := g2 rfl
    rw [h1, h2]
  have hl : k = ms.length := by
    rcases hk with hk | ⟨hk, _⟩
    · exact hk
    · rw [hk] at i; cases i
  have hk : k = g.elements.length := by rw [hl, ← means_length hm, returned_length]
  have hlen : (sep.intercalate (ms.map (·.text))).length = (Print.total ms).text.length + (ms.length - 1) * sep.length := by
    clear hm hl hk e g1 g2 i hq
    cases ms with
    | nil => simp [Print.total]
    | cons m ms =>
      simp only [List.map_cons, Print.intercalate_cons, List.length_append, Print.total, List.length_cons, Nat.add_sub_cancel]
      have : ∀ l : List Meaning, (((l.map (·.text)).map fun x => sep ++ x).flatten).length = (Print.total l).text.length + l.length * sep.length := by
        intro l
        induction l with
        | nil => simp [Print.total]
        | cons a l ih =>
          simp only [List.map_cons, List.flatten_cons, List.length_append, ih, Print.total, List.length_cons, Nat.succ_mul]
          omega
      rw [this]; omega
  simp only [fmtSeparatedPrinter]
  rw [if_neg (by simp [Pre.idle]), measure_state h w _ e, hlen]
  simp only [Option.bind_some]
  have ht : g.elements.take k = g.elements := by rw [hk, List.take_length]
  split
  · have : ms.length - 1 = 0 := by omega
    rw [this, hq, ht]; simp
  · rw [hq, ht, hl]
    simp [Pre.hasRemaining, Pre.addSize]
    omega

/-- C92: with `reserve_calc` the range is gone through twice: the function is called twice on each element; what is printed is what it returns the second time. -/
theorem measured_then_printed (L : Lawful D Rep) {g : Given α} (h : g.Valid) (w : ω) {ms ms' : List Meaning}
    (hm : Print.AllMean τ D Rep B (returned op w g.elements) ms) (hm' : Print.AllMean τ D Rep B (returned op (after op w g.elements) g.elements) ms')
    (s : σ) (t : List Nat) (hs : Rep s t) :
    ∃ p w' s' k, (rangePrinter D op g.range).measure w ⟨some 0, none⟩ = some (p, w') ∧ p.size = some (ms.map (·.text)).flatten.length ∧
      (rangePrinter D op g.range).print w' s = some (s', after op w (g.elements ++ g.elements.take k)) ∧ (D.good s' = true → k = g.elements.length) ∧
      Rep s' (t ++ (ms'.map (·.text)).flatten) := by
  obtain ⟨s', k, e, hk, r⟩ := function_called_once L h _ hm' s t hs
  refine ⟨_, _, s', k, function_measured h w hm 0, by simp, ?_, hk, r⟩
  rw [e, after_append]

/-! ## C92: separators, undefined behaviour, what does not compile -/

/-- C92: the separator is the string up to the zero; without one the behaviour is undefined. -/
theorem separator_exact (mem : List Nat) (p : Nat) (text : List Nat) (hp : p ≤ mem.length) : separator mem p = some text ↔ IsCstr mem p text := by
  unfold separator IsCstr
  rw [Lib.str_length_exact mem p hp]
  constructor
  · intro e
    split at e
    · rename_i hz
      cases e
      have : (mem.drop p).takeWhile (· ≠ 0) ++ (mem.drop p).dropWhile (· ≠ 0) = mem.drop p := List.takeWhile_append_dropWhile
      generalize hl : mem.drop p = l at *
      clear hl
      induction l with
      | nil => cases hz
      | cons a l ih =>
        by_cases ha : a = 0
        · subst ha; exact ⟨l, by simp, by simp⟩
        · have hz' : 0 ∈ l := by simpa [Ne.symm ha] using hz
          obtain ⟨x, h1, h2⟩ := ih hz' List.takeWhile_append_dropWhile
          refine ⟨x, ?_, ?_⟩
          · simp [ha] at h1 ⊢; exact h1
          · simp [ha] at h2 ⊢; exact ⟨Ne.symm ha, h2⟩
    · cases e
  · rintro ⟨x, h1, h2⟩
    rw [if_pos (by rw [h1]; simp), h1]
    have : (text ++ 0 :: x).takeWhile (· ≠ 0) = text := by
      rw [List.takeWhile_append_of_pos]
      · simp
      · intro a ha; simp; rintro rfl; exact h2 ha
    rw [this]
    simp

/-- If the iterators are the wrong way around, going through the range is undefined behaviour (as long as the destination is good). -/
theorem crossed_undefined (hg : ∀ s, D.good s = true) (seq : List α) (b e : Nat) (h : e < b) (w : ω) (s : σ) :
    (rangePrinter D op (Given.iterators seq b e).range).print w s = none := by
  show printLoop D op seq e (seq.length + 1) b w s = none
  generalize seq.length + 1 = fuel
  induction fuel generalizing b w s with
  | zero => rfl
  | succ fuel ih =>
    unfold printLoop
    rw [if_pos ⟨by omega, hg s⟩]
    cases seq[b]? with
    | none => rfl
    | some x =>
      dsimp only
      cases (op w x).2.print s with
      | none => rfl
      | some s1 => exact ih (b + 1) (by omega) _ _

/-- C92 is false of the code: fmt_separated_range does not compile with an initializer list; everything else does. -/
theorem fmt_separated_init_wrong (fmt separated : Bool) (g : Given α) :
    compiles fmt separated g = false ↔ fmt = true ∧ separated = true ∧ ∃ seq, g = .initList seq := by
  cases g <;> cases fmt <;> cases separated <;> simp [compiles]

end Strf.Ranges

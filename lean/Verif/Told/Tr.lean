import Verif.Told.Items
import Verif.Told.Spec
import Verif.Print.TrProps
/-!
What is told while a tr-string is printed: what there is to tell of the arguments, at each reference to them.
-/
namespace Strf.Told
open Strf.Tr
open Strf.Width
open Strf.Dest (Dest Lawful Prints)
open Strf.Print
open Strf.Charset (Event)

variable {α : Type} [Telling α] {σ : Type} {D : Dest Nat σ} {Rep : σ → List Nat → Prop}

/-- `o` is the state after `N` was told (`st.2` are the positions that the error notifier of tr-strings is called with) -/
def HeardO (D : Dest Nat σ) (Rep : σ → List Nat → Prop) (st : (σ × List α) × List Nat) (o : Option ((σ × List α) × List Nat)) (N : List α) :
    Prop :=
  ∃ s' e ps t, o = some ((s', st.1.2 ++ e), ps) ∧ Rep s' t ∧ (D.good s' = true → D.good st.1.1 = true ∧ Telling.rel N e)

theorem HeardO.bind {st : (σ × List α) × List Nat} {o : Option ((σ × List α) × List Nat)} {N M : List α}
    {f : (σ × List α) × List Nat → Option ((σ × List α) × List Nat)} (h : HeardO D Rep st o N)
    (hf : ∀ st' t, Rep st'.1.1 t → HeardO D Rep st' (f st') M) : HeardO D Rep st (o.bind f) (N ++ M) := by
  obtain ⟨s1, e1, p1, t1, rfl, r1, g1⟩ := h
  obtain ⟨s2, e2, p2, t2, h2, r2, g2⟩ := hf ((s1, st.1.2 ++ e1), p1) t1 r1
  refine ⟨s2, e1 ++ e2, p2, t2, ?_, r2, fun g => ?_⟩
  · rw [Option.bind_some, h2]; dsimp only; rw [List.append_assoc]
  · obtain ⟨k, a2⟩ := g2 g
    obtain ⟨k, a1⟩ := g1 k
    exact ⟨k, Telling.append a1 a2⟩

theorem HeardO.nil {st : (σ × List α) × List Nat} {t : List Nat} (h : Rep st.1.1 t) : HeardO D Rep st (some st) [] :=
  ⟨st.1.1, [], st.2, t, by simp, h, fun g => ⟨g, Telling.nil⟩⟩

theorem HeardO.of {p : σ × List α → Option (σ × List α)} {N : List α} (hp : HearsPr D Rep p N) {st : (σ × List α) × List Nat} {t : List Nat}
    (h : Rep st.1.1 t) (g : List Nat) : HeardO D Rep st ((p st.1).map fun s => (s, g)) N := by
  obtain ⟨s', e, t', h1, h2, h3⟩ := hp st.1.1 st.1.2 t h
  exact ⟨s', e, g, t', by rw [show st.1 = (st.1.1, st.1.2) from rfl, h1]; rfl, h2, h3⟩

/-- the printers `args` tell `Ns` -/
structure ArgsTell (D : Dest Nat σ) (Rep : σ → List Nat → Prop) (args : List (σ × List α → Option (σ × List α))) (Ns : List (List α)) :
    Prop where
  len : args.length = Ns.length
  tell : ∀ i (h : i < args.length), HearsPr D Rep args[i] (Ns.getD i [])

variable {R : Repl (σ × List α)} {args : List (σ × List α → Option (σ × List α))} {Ns : List (List α)}

theorem useArg_heard (HR : HearsPr D Rep R.write []) (HA : ArgsTell D Rep args Ns) (strLen i j : Nat) (it : List Nat)
    (hij : i < args.length ↔ j < args.length) (he : i < args.length → i = j)
    {st : (σ × List α) × List Nat} {t : List Nat} (h : Rep st.1.1 t) :
    HeardO D Rep st (useArg R args strLen i it st) (Ns.getD j []) := by
  unfold useArg
  by_cases hi : i < args.length
  · rw [dif_pos hi]
    have hj := he hi
    subst hj
    exact HeardO.of (HA.tell i hi) h _
  · rw [dif_neg hi, getD_ge _ _ _ (by rw [← HA.len]; rw [hij] at hi; omega)]
    exact HeardO.of HR h _

theorem atReferences_chars (k : Nat) (pre : List Nat) (segs : List Seg) :
    atReferences Ns k (pre.map .char ++ segs) = atReferences Ns k segs := by
  induction pre with
  | nil => rfl
  | cons c pre ih => simp only [List.map_cons, List.cons_append, atReferences, ih]

theorem rest_heard {total bound : Nat} {found : Option (List Nat)} {segs : List Seg} {k : Nat}
    (h : Rest total found segs bound) {cont : List Nat → (σ × List α) × List Nat → Option ((σ × List α) × List Nat)}
    (hc : ∀ it j, it.length < bound → j + it.length = total → Reads j it segs → ∀ st t, Rep st.1.1 t →
      HeardO D Rep st (cont it st) (atReferences Ns k segs))
    {st : (σ × List α) × List Nat} {t : List Nat} (hr : Rep st.1.1 t) :
    HeardO D Rep st (match found with
      | none => some st
      | some it => cont it.tail st) (atReferences Ns k segs) := by
  unfold Rest at h
  cases found with
  | none => dsimp only at h ⊢; subst h; exact HeardO.nil hr
  | some it =>
    obtain ⟨j, h1, h2, h3⟩ := h
    exact hc _ _ h3 h2 h1 st t hr

theorem trWrite_heard (L : Lawful D Rep) (HR : HearsPr D Rep R.write []) (HA : ArgsTell D Rep args Ns) (strLen : Nat) :
    ∀ (fuel : Nat) (it : List Nat) (i k : Nat) (segs : List Seg), it.length < fuel →
      (i + it.length = strLen → Reads i it segs → ∀ st t, Rep st.1.1 t →
        HeardO D Rep st (trWrite (logged D) R args strLen fuel false it (min k args.length) st) (atReferences Ns k segs)) ∧
      (i + 1 + it.length = strLen → Reads i (0x7B :: it) segs → ∀ st t, Rep st.1.1 t →
        HeardO D Rep st (trWrite (logged D) R args strLen fuel true it (min k args.length) st) (atReferences Ns k segs)) := by
  intro fuel
  induction fuel with
  | zero => intro it _ _ _ h; omega
  | succ fuel ih =>
    intro it i k segs hf
    constructor
    · intro hi hr st t hrep
      unfold trWrite
      by_cases h0 : it.length = 0
      · rw [if_pos h0]
        have := List.length_eq_zero_iff.1 h0; subst this
        cases hr
        exact HeardO.nil hrep
      · rw [if_neg h0]
        obtain ⟨r1, r2⟩ := reads_run hr
        cases hfd : strFind 0x7B it with
        | none =>
          dsimp only
          rw [r1 hfd]
          have e1 := atReferences_chars (Ns := Ns) k it []
          rw [List.append_nil] at e1
          rw [e1]
          exact HeardO.of (hears_write L it) hrep _
        | some it' =>
          obtain ⟨pre, tl, segs', h1, h2, h3, h4⟩ := r2 it' hfd
          dsimp only
          subst h1 h2 h3
          rw [atReferences_chars, upTo_append]
          have hw := HeardO.of (hears_write L pre) hrep st.2
          have := HeardO.bind hw (f := fun st => trWrite (logged D) R args strLen fuel true tl (min k args.length) st)
            (M := atReferences Ns k segs') (by
              intro st' t' hst'
              simp only [List.length_append, List.length_cons] at hf hi
              exact (ih tl (i + pre.length) k segs' (by omega)).2 (by omega) h4 st' _ hst')
          rw [List.nil_append] at this
          convert this using 1
          simp only [List.tail_cons]
          cases Dest.write (logged D) st.1 pre <;> rfl
    · intro hi hr st t hrep
      cases brace_of_reads hr with
      | stop =>
        unfold trWrite
        simp only [atReferences, List.append_nil]
        exact useArg_heard HR HA strLen _ k [] (by omega) (by omega) hrep
      | @close tl segs' h1 =>
        unfold trWrite
        rw [if_pos rfl]
        simp only [atReferences]
        refine HeardO.bind (useArg_heard HR HA strLen _ k _ (by omega) (by omega) hrep) fun st' t' hst' => ?_
        simp only [List.length_cons] at hf hi
        have e : (if min k args.length < args.length then min k args.length + 1 else min k args.length) =
            min (k + 1) args.length := by split <;> omega
        rw [e]
        exact (ih tl (i + 2) (k + 1) segs' (by omega)).1 (by omega) h1 st' _ hst'
      | @digit ch tl n segs' hd h1 =>
        unfold trWrite
        rw [if_neg (by omega), if_pos hd]
        obtain ⟨r, e1, e2, e3, e4⟩ := h1 args.length
        rw [e1]
        simp only [Option.bind_some, atReferences]
        refine HeardO.bind (useArg_heard HR HA strLen r.1 n _ e2 e3 hrep) fun st' t' hst' => ?_
        rw [hi] at e4
        refine rest_heard e4 (cont := fun it st => trWrite (logged D) R args strLen fuel false it (min k args.length) st) ?_ hst'
        intro it j hb hj hrd st t hst
        exact (ih it j k segs' (by omega)).1 hj hrd st t hst
      | @escape tl segs' h1 =>
        unfold trWrite
        rw [if_neg (by omega), if_neg (by omega), if_pos rfl]
        simp only [atReferences]
        obtain ⟨r1, r2⟩ := reads_run h1
        cases hfd : strFind 0x7B tl with
        | none =>
          dsimp only
          rw [r1 hfd]
          have e1 := atReferences_chars (Ns := Ns) k tl []
          rw [List.append_nil] at e1
          rw [e1]
          exact HeardO.of (hears_write L (0x7B :: tl)) hrep _
        | some it' =>
          obtain ⟨pre, tl', segs'', h1, h2, h3, h4⟩ := r2 it' hfd
          dsimp only
          subst h1 h2 h3
          rw [atReferences_chars, ← List.cons_append, upTo_append]
          have hw := HeardO.of (hears_write L (0x7B :: pre)) hrep st.2
          have := HeardO.bind hw (f := fun st => trWrite (logged D) R args strLen fuel true tl' (min k args.length) st)
            (M := atReferences Ns k segs'') (by
              intro st' t' hst'
              simp only [List.length_append, List.length_cons] at hf hi
              exact (ih tl' (i + 2 + pre.length) k segs'' (by omega)).2 (by omega) h4 st' _ hst')
          rw [List.nil_append] at this
          convert this using 1
          simp only [List.tail_cons]
          cases Dest.write (logged D) st.1 (0x7B :: pre) <;> rfl
      | @comment tl segs' h1 =>
        unfold trWrite
        rw [if_neg (by omega), if_neg (by omega), if_neg (by omega), if_neg (by simp)]
        simp only [Option.bind_some, atReferences]
        rw [hi] at h1
        refine rest_heard h1 (cont := fun it st => trWrite (logged D) R args strLen fuel false it (min k args.length) st) ?_ hrep
        intro it j hb hj hrd st t hst
        simp only [List.length_cons] at hf
        exact (ih it j k segs' (by omega)).1 hj hrd st t hst
      | @other ch tl segs' c1 c2 c3 c4 h1 =>
        unfold trWrite
        rw [if_neg c1, if_neg c4, if_neg c2, if_pos c3]
        simp only [atReferences]
        have hu := useArg_heard HR HA strLen (min k args.length) k (ch :: tl) (by omega) (by omega) hrep
        have := HeardO.bind hu (f := fun st => match strFind 0x7D tl with
          | none => some st
          | some it => trWrite (logged D) R args strLen fuel false it.tail (min (k + 1) args.length) st)
          (M := atReferences Ns (k + 1) segs') (by
            intro st' t' hst'
            rw [hi] at h1
            refine rest_heard h1 (cont := fun it st => trWrite (logged D) R args strLen fuel false it (min (k + 1) args.length) st) ?_ hst'
            intro it j hb hj hrd st t hst
            simp only [List.length_cons] at hf
            exact (ih it j (k + 1) segs' (by omega)).1 hj hrd st t hst)
        convert this using 1
        have e : (if min k args.length < args.length then min k args.length + 1 else min k args.length) =
            min (k + 1) args.length := by split <;> omega
        rw [e]
        cases useArg R args strLen (min k args.length) (ch :: tl) st <;> rfl

theorem trStringWrite_heard (L : Lawful D Rep) (HR : HearsPr D Rep R.write []) (HA : ArgsTell D Rep args Ns) {str : List Nat}
    {segs : List Seg} (h : Reads 0 str segs) {st : (σ × List α) × List Nat} {t : List Nat} (hr : Rep st.1.1 t) :
    HeardO D Rep st (trStringWrite (logged D) R args str st) (atReferences Ns 0 segs) := by
  have := (trWrite_heard L HR HA str.length (str.length + 1) str 0 0 segs (by omega)).1 (by omega) h st t hr
  rwa [Nat.zero_min] at this

theorem trStringWrite_hears (L : Lawful D Rep) (HR : HearsPr D Rep R.write []) (HA : ArgsTell D Rep args Ns) {str : List Nat}
    {segs : List Seg} (h : Reads 0 str segs) :
    HearsPr D Rep (fun s => (trStringWrite (logged D) R args str (s, [])).map (·.1)) (atReferences Ns 0 segs) := by
  intro s l t hr
  obtain ⟨s', e, ps, t', h1, h2, h3⟩ := trStringWrite_heard L HR HA h (st := ((s, l), [])) (t := t) hr
  exact ⟨s', e, t', by dsimp only at h1 ⊢; rw [h1]; rfl, h2, h3⟩

variable {B : Int} {its0 its : List (Item (σ × List α))} {ms : List Meaning}

theorem AllSpeak.makeEach_sub (h : AllSpeak D Rep B its0 its ms Ns) : ∀ p r, makeEach p its0 = some r → makeEach p its = some r := by
  induction h with
  | nil => intro p r e; exact e
  | @cons it0 it its0 its m ms N M hs _ _ ih =>
    intro p r e
    unfold makeEach at e ⊢
    obtain ⟨q, h1, e⟩ := Option.bind_eq_some_iff.1 e
    obtain ⟨q2, h2, rfl⟩ := Option.map_eq_some_iff.1 e
    rw [hs _ _ h1, Option.bind_some, ih _ _ h2]; rfl

theorem AllSpeak.makeEach (h : AllSpeak D Rep B its0 its ms Ns) : ∀ p rs, Print.makeEach p its0 = some rs →
    ArgsTell D Rep (rs.map fun r => r.2) Ns := by
  induction h with
  | nil => intro p rs e; cases e; exact ⟨rfl, fun i h => absurd h (by simp)⟩
  | @cons it0 it its0 its m ms N M hs h1 _ ih =>
    intro p rs e
    unfold Print.makeEach at e
    obtain ⟨q, h2, e⟩ := Option.bind_eq_some_iff.1 e
    obtain ⟨q2, h3, rfl⟩ := Option.map_eq_some_iff.1 e
    obtain ⟨a, b⟩ := ih _ _ h3
    refine ⟨by simpa using a, fun i hi => ?_⟩
    cases i with
    | zero => exact h1.2 _ _ _ h2
    | succ i => exact b i (by simpa using hi)

theorem speaks_tr (L : Lawful D Rep) {W : WCalc} {slack : Int} {Ok : List Nat → Prop} {tw : List Nat → Int} {repl : List Nat}
    (HW : W.Measures slack Ok tw) (HR : R.Lawful (logged D) (RepAny Rep) repl) (HQ : HearsPr D Rep R.write [])
    (h : AllSpeak D Rep Width.wmax its0 its ms Ns) (hr : ∀ m ∈ ms, m.room ≤ Width.wmax) {str : List Nat} {segs : List Seg}
    (hs : Reads 0 str segs) (hok : ∀ run, Piece.text run ∈ pieces 0 [] segs → Ok run) :
    Speaks D Rep B (trItem (logged D) W R str its) (.tr tw slack repl ms segs) (atReferences Ns 0 segs) := by
  refine ⟨trItem (logged D) W R str its0, ?_, tr_means (lawful_any L) HW HR B h.means hr hs hok, ?_⟩
  · intro p r e
    unfold trItem at e ⊢
    dsimp only at e ⊢
    obtain ⟨rs, h2, e⟩ := Option.bind_eq_some_iff.1 e
    rw [h.makeEach_sub _ _ h2]; exact e
  · intro p p' pr e
    unfold trItem at e
    dsimp only at e
    obtain ⟨rs, h2, e⟩ := Option.bind_eq_some_iff.1 e
    obtain ⟨q, -, e⟩ := Option.map_eq_some_iff.1 e
    injection e with _ e; subst e
    exact trStringWrite_hears L HQ (h.makeEach _ _ h2) hs

end Strf.Told

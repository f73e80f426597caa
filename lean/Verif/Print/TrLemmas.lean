import Verif.Print.TrParse
/-!
What the three parsers of tr_printer.hpp do.
-/
namespace Strf.Print
open Strf.Tr
open Strf.Width
open Strf.Dest (Dest Lawful Prints)

variable {σ : Type} {D : Dest Nat σ} {Rep : σ → List Nat → Prop}

theorem dite_getD {α : Type} (l : List α) (i : Nat) (d : α) : (if h : i < l.length then l[i] else d) = l.getD i d := by
  by_cases h : i < l.length
  · rw [dif_pos h, List.getD_eq_getElem?_getD, List.getElem?_eq_getElem h]; rfl
  · rw [dif_neg h, List.getD_eq_getElem?_getD, List.getElem?_eq_none (by omega)]; rfl

theorem getD_ge {α : Type} (l : List α) (i : Nat) (d : α) (h : l.length ≤ i) : l.getD i d = d := by
  rw [List.getD_eq_getElem?_getD, List.getElem?_eq_none h]; rfl

theorem upTo_append (pre t : List Nat) : upTo (pre ++ t) t = pre := by
  unfold upTo
  rw [List.length_append, Nat.add_sub_cancel, List.take_left']
  rfl

/-! ## tr_string_write -/

/-- `o` is the state after writing `x` to the destination and reporting the positions `e` -/
def Wrote (τ : Bool) (D : Dest Nat σ) (Rep : σ → List Nat → Prop) (st : σ × List Nat) (t : List Nat) (o : Option (σ × List Nat))
    (x e : List Nat) : Prop :=
  ∃ s', o = some (s', st.2 ++ e) ∧ Rep s' (t ++ x) ∧ Dest.After τ D st.1 s' x.length

theorem Wrote.bind {st : σ × List Nat} {t x y e e' : List Nat} {o : Option (σ × List Nat)}
    {f : σ × List Nat → Option (σ × List Nat)} (h : Wrote τ D Rep st t o x e)
    (hf : ∀ st', Rep st'.1 (t ++ x) → Wrote τ D Rep st' (t ++ x) (f st') y e') :
    Wrote τ D Rep st t (o.bind f) (x ++ y) (e ++ e') := by
  obtain ⟨s', rfl, h2, h3⟩ := h
  obtain ⟨s'', g1, g2, g3⟩ := hf (s', st.2 ++ e) h2
  refine ⟨s'', ?_, ?_, h3.trans g3 (by simp)⟩
  · simp only [Option.bind_some]; rw [g1]; dsimp only; rw [List.append_assoc]
  · rw [← List.append_assoc]; exact g2

theorem Wrote.nil {st : σ × List Nat} {t : List Nat} (h : Rep st.1 t) : Wrote τ D Rep st t (some st) [] [] :=
  ⟨st.1, by simp, by simpa using h, .refl _⟩

theorem Wrote.of_prints {p : σ → Option σ} {x : List Nat} (hp : Prints τ D Rep p x) {st : σ × List Nat} {t : List Nat}
    (h : Rep st.1 t) (e : List Nat) : Wrote τ D Rep st t ((p st.1).map fun s => (s, st.2 ++ e)) x e := by
  obtain ⟨s', h1, h2, h3⟩ := hp st.1 t h
  exact ⟨s', by rw [h1]; rfl, h2, h3⟩

/-- the printers `args` print `texts` -/
structure ArgsPrint (τ : Bool) (D : Dest Nat σ) (Rep : σ → List Nat → Prop) (args : List (σ → Option σ)) (texts : List (List Nat)) :
    Prop where
  len : args.length = texts.length
  prints : ∀ i (h : i < args.length) (d : List Nat), Prints τ D Rep args[i] (texts.getD i d)

/-- The replacement character is `repl`. -/
structure Repl.Lawful (R : Repl σ) (D : Dest Nat σ) (Rep : σ → List Nat → Prop) (repl : List Nat) : Prop where
  printsTight : Prints true D Rep R.write repl
  size : R.size = repl.length

theorem Repl.Lawful.prints {R : Repl σ} {D : Dest Nat σ} {Rep : σ → List Nat → Prop} {repl : List Nat} {τ : Bool}
    (H : R.Lawful D Rep repl) : Prints τ D Rep R.write repl := H.printsTight.any

variable {R : Repl σ} {repl : List Nat} {args : List (σ → Option σ)} {texts : List (List Nat)}

theorem useArg_wrote (HR : R.Lawful D Rep repl) (HA : ArgsPrint τ D Rep args texts) (strLen i j pos : Nat) (it : List Nat)
    (hij : i < args.length ↔ j < args.length) (he : i < args.length → i = j) (hpos : pos + 1 + it.length = strLen)
    {st : σ × List Nat} {t : List Nat} (h : Rep st.1 t) :
    Wrote τ D Rep st t (useArg R args strLen i it st) (texts.getD j repl) (if j < args.length then [] else [pos]) := by
  unfold useArg
  by_cases hi : i < args.length
  · rw [dif_pos hi, if_pos (hij.1 hi)]
    have hj := he hi
    subst hj
    have := Wrote.of_prints (τ := τ) (HA.prints i hi repl) h []
    simpa using this
  · rw [dif_neg hi, if_neg (fun g => hi (hij.2 g)), getD_ge _ _ _ (by rw [← HA.len]; rw [hij] at hi; omega)]
    have e : strLen - it.length - 1 = pos := by omega
    rw [e]
    exact Wrote.of_prints (τ := τ) HR.prints h [pos]

theorem expand_chars (args : List (List Nat)) (repl : List Nat) (k : Nat) (pre : List Nat) (segs : List Seg) :
    expand args repl k (pre.map .char ++ segs) = pre ++ expand args repl k segs := by
  induction pre with
  | nil => rfl
  | cons c pre ih => simp only [List.map_cons, List.cons_append, expand, ih]

theorem missing_chars (n k : Nat) (pre : List Nat) (segs : List Seg) :
    missing n k (pre.map .char ++ segs) = missing n k segs := by
  induction pre with
  | nil => rfl
  | cons c pre ih => simp only [List.map_cons, List.cons_append, missing, ih]

/-- the rest of the loop after a `}` was looked for -/
theorem Rest.wrote {total bound : Nat} {found : Option (List Nat)} {segs : List Seg} {k n : Nat}
    (h : Rest total found segs bound) {cont : List Nat → σ × List Nat → Option (σ × List Nat)}
    (hc : ∀ it j, it.length < bound → j + it.length = total → Reads j it segs → ∀ st t, Rep st.1 t →
      Wrote τ D Rep st t (cont it st) (expand texts repl k segs) (missing n k segs))
    {st : σ × List Nat} {t : List Nat} (hr : Rep st.1 t) :
    Wrote τ D Rep st t (match found with
      | none => some st
      | some it => cont it.tail st) (expand texts repl k segs) (missing n k segs) := by
  unfold Rest at h
  cases found with
  | none => dsimp only at h ⊢; subst h; exact Wrote.nil hr
  | some it =>
    obtain ⟨j, h1, h2, h3⟩ := h
    exact hc _ _ h3 h2 h1 st t hr

theorem trWrite_spec (L : Lawful D Rep) (HR : R.Lawful D Rep repl) (HA : ArgsPrint τ D Rep args texts) (strLen : Nat) :
    ∀ (fuel : Nat) (it : List Nat) (i k : Nat) (segs : List Seg), it.length < fuel →
      (i + it.length = strLen → Reads i it segs → ∀ st t, Rep st.1 t →
        Wrote τ D Rep st t (trWrite D R args strLen fuel false it (min k args.length) st) (expand texts repl k segs)
          (missing args.length k segs)) ∧
      (i + 1 + it.length = strLen → Reads i (0x7B :: it) segs → ∀ st t, Rep st.1 t →
        Wrote τ D Rep st t (trWrite D R args strLen fuel true it (min k args.length) st) (expand texts repl k segs)
          (missing args.length k segs)) := by
  intro fuel
  induction fuel with
  | zero => intro it _ _ _ h; omega
  | succ fuel ih =>
    intro it i k segs hf
    constructor
    · intro hi hr st t hrep
      unfold trWrite
      by_cases h0 : it.length = 0
      · rw [if_pos h0]
        have := List.length_eq_zero_iff.1 h0; subst this
        cases hr
        exact Wrote.nil hrep
      · rw [if_neg h0]
        obtain ⟨r1, r2⟩ := reads_run hr
        cases hfd : strFind 0x7B it with
        | none =>
          dsimp only
          rw [r1 hfd]
          have e1 := expand_chars texts repl k it []
          have e2 := missing_chars args.length k it []
          rw [List.append_nil] at e1 e2
          rw [e1, e2]
          simp only [expand, missing, List.append_nil]
          have := Wrote.of_prints (L.prints_write (τ := τ) it) hrep []
          simpa using this
        | some it' =>
          obtain ⟨pre, tl, segs', h1, h2, h3, h4⟩ := r2 it' hfd
          dsimp only
          subst h1 h2 h3
          rw [expand_chars, missing_chars, upTo_append]
          have hw := Wrote.of_prints (L.prints_write (τ := τ) pre) hrep []
          have := Wrote.bind hw (f := fun st => trWrite D R args strLen fuel true tl (min k args.length) st)
            (y := expand texts repl k segs') (e' := missing args.length k segs') (by
              intro st' hst'
              simp only [List.length_append, List.length_cons] at hf hi
              exact (ih tl (i + pre.length) k segs' (by omega)).2 (by omega) h4 st' _ hst')
          rw [List.nil_append] at this
          convert this using 1
          simp only [List.append_nil, List.tail_cons]
          cases Dest.write D st.1 pre <;> rfl
    · intro hi hr st t hrep
      cases brace_of_reads hr with
      | stop =>
        unfold trWrite
        simp only [expand, missing, List.append_nil]
        exact useArg_wrote HR HA strLen _ k i [] (by omega) (by omega) hi hrep
      | @close tl segs' h1 =>
        unfold trWrite
        rw [if_pos rfl]
        simp only [expand, missing]
        refine Wrote.bind (useArg_wrote HR HA strLen _ k i _ (by omega) (by omega) hi hrep) fun st' hst' => ?_
        simp only [List.length_cons] at hf hi
        have e : (if min k args.length < args.length then min k args.length + 1 else min k args.length) =
            min (k + 1) args.length := by split <;> omega
        rw [e]
        exact (ih tl (i + 2) (k + 1) segs' (by omega)).1 (by omega) h1 st' _ hst'
      | @digit ch tl n segs' hd h1 =>
        unfold trWrite
        rw [if_neg (by omega), if_pos hd]
        obtain ⟨r, e1, e2, e3, e4⟩ := h1 args.length
        rw [e1]
        simp only [Option.bind_some, expand, missing]
        refine Wrote.bind (useArg_wrote HR HA strLen r.1 n i _ e2 e3 hi hrep) fun st' hst' => ?_
        rw [hi] at e4
        refine Rest.wrote e4 (cont := fun it st => trWrite D R args strLen fuel false it (min k args.length) st) ?_ hst'
        intro it j hb hj hrd st t hst
        exact (ih it j k segs' (by omega)).1 hj hrd st t hst
      | @escape tl segs' h1 =>
        unfold trWrite
        rw [if_neg (by omega), if_neg (by omega), if_pos rfl]
        simp only [expand, missing]
        obtain ⟨r1, r2⟩ := reads_run h1
        cases hfd : strFind 0x7B tl with
        | none =>
          dsimp only
          rw [r1 hfd]
          have e1 := expand_chars texts repl k tl []
          have e2 := missing_chars args.length k tl []
          rw [List.append_nil] at e1 e2
          rw [e1, e2]
          simp only [expand, missing, List.append_nil]
          have := Wrote.of_prints (L.prints_write (τ := τ) (0x7B :: tl)) hrep []
          simpa using this
        | some it' =>
          obtain ⟨pre, tl', segs'', h1, h2, h3, h4⟩ := r2 it' hfd
          dsimp only
          subst h1 h2 h3
          rw [expand_chars, missing_chars, ← List.cons_append, upTo_append]
          have hw := Wrote.of_prints (L.prints_write (τ := τ) (0x7B :: pre)) hrep []
          have := Wrote.bind hw (f := fun st => trWrite D R args strLen fuel true tl' (min k args.length) st)
            (y := expand texts repl k segs'') (e' := missing args.length k segs'') (by
              intro st' hst'
              simp only [List.length_append, List.length_cons] at hf hi
              exact (ih tl' (i + 2 + pre.length) k segs'' (by omega)).2 (by omega) h4 st' _ hst')
          rw [List.nil_append, List.cons_append] at this
          convert this using 1
          simp only [List.append_nil, List.tail_cons]
          cases Dest.write D st.1 (0x7B :: pre) <;> rfl
      | @comment tl segs' h1 =>
        unfold trWrite
        rw [if_neg (by omega), if_neg (by omega), if_neg (by omega), if_neg (by simp)]
        simp only [Option.bind_some, expand, missing]
        rw [hi] at h1
        refine Rest.wrote h1 (cont := fun it st => trWrite D R args strLen fuel false it (min k args.length) st) ?_ hrep
        intro it j hb hj hrd st t hst
        simp only [List.length_cons] at hf
        exact (ih it j k segs' (by omega)).1 hj hrd st t hst
      | @other ch tl segs' c1 c2 c3 c4 h1 =>
        unfold trWrite
        rw [if_neg c1, if_neg c4, if_neg c2, if_pos c3]
        simp only [expand, missing]
        have hu := useArg_wrote HR HA strLen (min k args.length) k i (ch :: tl) (by omega) (by omega) hi hrep
        have := Wrote.bind hu (f := fun st => match strFind 0x7D tl with
          | none => some st
          | some it => trWrite D R args strLen fuel false it.tail (min (k + 1) args.length) st)
          (y := expand texts repl (k + 1) segs') (e' := missing args.length (k + 1) segs') (by
            intro st' hst'
            rw [hi] at h1
            refine Rest.wrote h1 (cont := fun it st => trWrite D R args strLen fuel false it (min (k + 1) args.length) st) ?_ hst'
            intro it j hb hj hrd st t hst
            simp only [List.length_cons] at hf
            exact (ih it j (k + 1) segs' (by omega)).1 hj hrd st t hst)
        convert this using 1
        have e : (if min k args.length < args.length then min k args.length + 1 else min k args.length) =
            min (k + 1) args.length := by split <;> omega
        rw [e]
        cases useArg R args strLen (min k args.length) (ch :: tl) st <;> rfl

/-! ## tr_string_size -/

theorem Rest.sized {total bound : Nat} {found : Option (List Nat)} {segs : List Seg} {k count : Nat}
    (h : Rest total found segs bound) {cont : List Nat → Option Nat}
    (hc : ∀ it j, it.length < bound → Reads j it segs → cont it = some (count + (expand texts repl k segs).length)) :
    (match found with
      | none => some count
      | some it => cont it.tail) = some (count + (expand texts repl k segs).length) := by
  unfold Rest at h
  cases found with
  | none => dsimp only at h ⊢; subst h; rfl
  | some it =>
    obtain ⟨j, h1, h2, h3⟩ := h
    exact hc _ _ h3 h1

theorem size_getD (texts : List (List Nat)) (repl : List Nat) (i : Nat) :
    (texts.map List.length).getD i repl.length = (texts.getD i repl).length := by
  by_cases h : i < texts.length
  · simp [List.getD_eq_getElem?_getD, List.getElem?_eq_getElem h]
  · rw [getD_ge _ _ _ (by simpa using h), getD_ge _ _ _ (by simpa using h)]

theorem trSize_spec (texts : List (List Nat)) (repl : List Nat) :
    ∀ (fuel : Nat) (it : List Nat) (i k : Nat) (segs : List Seg) (count : Nat), it.length < fuel →
      (Reads i it segs → trSize (texts.map List.length) repl.length fuel false it (min k texts.length) count =
        some (count + (expand texts repl k segs).length)) ∧
      (Reads i (0x7B :: it) segs → trSize (texts.map List.length) repl.length fuel true it (min k texts.length) count =
        some (count + (expand texts repl k segs).length)) := by
  intro fuel
  induction fuel with
  | zero => intro it _ _ _ _ h; omega
  | succ fuel ih =>
    intro it i k segs count hf
    have hnext : ∀ x y : Nat, (if min k (texts.map List.length).length < (texts.map List.length).length
        then min k (texts.map List.length).length + 1 else min k (texts.map List.length).length) = min (k + 1) texts.length := by
      intro _ _; rw [List.length_map]; split <;> omega
    have hmin : (texts.map List.length).getD (min k texts.length) repl.length = (texts.getD k repl).length := by
      by_cases h : k < texts.length
      · rw [Nat.min_eq_left (by omega), size_getD]
      · rw [Nat.min_eq_right (by omega), getD_ge _ _ _ (by simp), getD_ge _ _ _ (by omega)]
    constructor
    · intro hr
      unfold trSize
      by_cases h0 : it.length = 0
      · rw [if_pos h0]
        have := List.length_eq_zero_iff.1 h0; subst this
        cases hr
        rfl
      · rw [if_neg h0]
        obtain ⟨r1, r2⟩ := reads_run hr
        cases hfd : strFind 0x7B it with
        | none =>
          dsimp only
          rw [r1 hfd]
          have e1 := expand_chars texts repl k it []
          rw [List.append_nil] at e1
          rw [e1]; simp [expand]
        | some it' =>
          obtain ⟨pre, tl, segs', h1, h2, h3, h4⟩ := r2 it' hfd
          dsimp only
          subst h1 h2 h3
          rw [expand_chars, upTo_append, List.tail_cons]
          simp only [List.length_append, List.length_cons] at hf
          rw [(ih tl (i + pre.length) k segs' _ (by omega)).2 h4, List.length_append, Nat.add_assoc]
    · intro hr
      cases brace_of_reads hr with
      | stop =>
        unfold trSize
        rw [dite_getD, hmin]
        simp [expand]
      | @close tl segs' h1 =>
        unfold trSize
        rw [if_pos rfl, dite_getD, hmin]
        simp only [List.length_cons] at hf
        have hn := hnext 0 0
        rw [List.length_map] at hn ⊢
        rw [hn, (ih tl (i + 2) (k + 1) segs' _ (by omega)).1 h1]
        simp only [expand, List.length_append]
        rw [Nat.add_assoc]
      | @digit ch tl n segs' hd h1 =>
        unfold trSize
        rw [if_neg (by omega), if_pos hd]
        obtain ⟨r, e1, e2, e3, e4⟩ := h1 (texts.map List.length).length
        rw [e1]
        simp only [Option.bind_some, expand, List.length_append]
        have hg : (texts.map List.length).getD r.1 repl.length = (texts.getD n repl).length := by
          by_cases h : r.1 < (texts.map List.length).length
          · rw [e3 h, size_getD]
          · rw [getD_ge _ _ _ (by omega), getD_ge _ _ _ (by rw [e2] at h; simpa using h)]
        rw [dite_getD, hg, ← Nat.add_assoc]
        exact Rest.sized e4 (cont := fun it => trSize (texts.map List.length) repl.length fuel false it (min k texts.length) _)
          fun it j hb hrd => (ih it j k segs' _ (by omega)).1 hrd
      | @escape tl segs' h1 =>
        unfold trSize
        rw [if_neg (by omega), if_neg (by omega), if_pos rfl]
        simp only [expand]
        obtain ⟨r1, r2⟩ := reads_run h1
        cases hfd : strFind 0x7B tl with
        | none =>
          dsimp only
          rw [r1 hfd]
          have e1 := expand_chars texts repl k tl []
          rw [List.append_nil] at e1
          rw [e1]; simp [expand]
        | some it' =>
          obtain ⟨pre, tl', segs'', h1, h2, h3, h4⟩ := r2 it' hfd
          dsimp only
          subst h1 h2 h3
          rw [expand_chars, ← List.cons_append, upTo_append, List.tail_cons]
          simp only [List.length_append, List.length_cons] at hf
          rw [(ih tl' (i + 2 + pre.length) k segs'' _ (by omega)).2 h4]
          simp only [List.length_append, List.length_cons]
          congr 1; omega
      | @comment tl segs' h1 =>
        unfold trSize
        rw [if_neg (by omega), if_neg (by omega), if_neg (by omega), if_neg (by simp)]
        simp only [expand]
        simp only [List.length_cons] at hf
        exact Rest.sized h1 (cont := fun it => trSize (texts.map List.length) repl.length fuel false it (min k texts.length) _)
          fun it j hb hrd => (ih it j k segs' _ (by omega)).1 hrd
      | @other ch tl segs' c1 c2 c3 c4 h1 =>
        unfold trSize
        rw [if_neg c1, if_neg c4, if_neg c2, if_pos c3]
        simp only [expand, List.length_append]
        simp only [List.length_cons] at hf
        have hn := hnext 0 0
        rw [List.length_map] at hn
        rw [dite_getD, hmin, ← Nat.add_assoc, List.length_map, hn]
        exact Rest.sized h1 (cont := fun it => trSize (texts.map List.length) repl.length fuel false it (min (k + 1) texts.length) _)
          fun it j hb hrd => (ih it j (k + 1) segs' _ (by omega)).1 hrd

/-! ## tr_do_premeasurements -/

/-- the pieces are accounted for in order, until one of the functions says to stop -/
def accountPieces {π : Type} (P : TrPre π) : List Piece → π → Option π
  | [], st => some st
  | .text s :: ps, st => (P.accountString s st).bind fun r => if r.1 then some r.2 else accountPieces P ps r.2
  | .arg i :: ps, st => (P.accountArg i st).bind fun r => if r.1 then some r.2 else accountPieces P ps r.2

theorem pieces_chars (k : Nat) (pre : List Nat) (segs : List Seg) :
    ∀ run, pieces k run (pre.map .char ++ segs) = pieces k (run ++ pre) segs := by
  induction pre with
  | nil => intro run; simp
  | cons c pre ih =>
    intro run
    simp only [List.map_cons, List.cons_append, pieces]
    rw [ih, List.append_assoc]; rfl

/-- the pieces after the first one -/
def laterPieces (k : Nat) (segs : List Seg) : List Piece := (pieces k [] segs).tail

theorem pieces_brace {i k : Nat} {l : List Nat} {segs : List Seg} (h : Reads i (0x7B :: l) segs) (run : List Nat) :
    pieces k run segs = .text run :: laterPieces k segs := by
  cases brace_of_reads h <;> rfl

theorem Rest.accounted {π : Type} {P : TrPre π} {total bound : Nat} {found : Option (List Nat)} {segs : List Seg} {k : Nat}
    {st : π} (h : Rest total found segs bound) {cont : List Nat → Option π}
    (hc : ∀ it j, it.length < bound → Reads j it segs → cont it = accountPieces P (pieces k [] segs) st) :
    (match found with
      | none => some st
      | some it => cont it.tail) = accountPieces P (pieces k [] segs) st := by
  unfold Rest at h
  cases found with
  | none => dsimp only at h ⊢; subst h; rfl
  | some it =>
    obtain ⟨j, h1, h2, h3⟩ := h
    exact hc _ _ h3 h1

theorem accountLast {π : Type} (o : Option (Bool × π)) : o.map (·.2) = o.bind fun r => if r.1 then some r.2 else some r.2 := by
  cases o <;> simp

theorem trPre_spec {π : Type} (P : TrPre π) (hP : ∀ i j, P.numArgs ≤ i → P.numArgs ≤ j → P.accountArg i = P.accountArg j) :
    ∀ (fuel : Nat) (it : List Nat) (i k : Nat) (segs : List Seg) (st : π), it.length < fuel →
      (Reads i it segs → trPre P fuel false it k st = accountPieces P (pieces k [] segs) st) ∧
      (Reads i (0x7B :: it) segs → trPre P fuel true it k st = accountPieces P (laterPieces k segs) st) := by
  intro fuel
  induction fuel with
  | zero => intro it _ _ _ _ h; omega
  | succ fuel ih =>
    intro it i k segs st hf
    constructor
    · intro hr
      unfold trPre
      by_cases h0 : it.length = 0
      · rw [if_pos h0]
        have := List.length_eq_zero_iff.1 h0; subst this
        cases hr
        rfl
      · rw [if_neg h0]
        obtain ⟨r1, r2⟩ := reads_run hr
        cases hfd : strFind 0x7B it with
        | none =>
          dsimp only
          rw [r1 hfd]
          have e1 := pieces_chars k it [] []
          rw [List.append_nil] at e1
          rw [e1]
          simp only [pieces, List.nil_append]
          rw [if_neg (by intro g; rw [g] at h0; exact h0 rfl), accountLast]
          rfl
        | some it' =>
          obtain ⟨pre, tl, segs', h1, h2, h3, h4⟩ := r2 it' hfd
          dsimp only
          subst h1 h2 h3
          rw [pieces_chars, upTo_append, List.tail_cons, List.nil_append, pieces_brace h4]
          simp only [List.length_append, List.length_cons] at hf
          simp only [accountPieces]
          congr 1
          funext r
          rw [(ih tl (i + pre.length) k segs' _ (by omega)).2 h4]
    · intro hr
      cases brace_of_reads hr with
      | stop =>
        unfold trPre
        simp only [laterPieces, pieces, List.tail_cons, if_true, accountPieces]
        rw [accountLast]
      | @close tl segs' h1 =>
        unfold trPre
        rw [if_pos rfl]
        simp only [laterPieces, pieces, List.tail_cons, accountPieces]
        simp only [List.length_cons] at hf
        congr 1
        funext r
        rw [(ih tl (i + 2) (k + 1) segs' _ (by omega)).1 h1]
      | @digit ch tl n segs' hd h1 =>
        unfold trPre
        rw [if_neg (by omega), if_pos hd]
        obtain ⟨r, e1, e2, e3, e4⟩ := h1 P.numArgs
        rw [e1]
        simp only [Option.bind_some, laterPieces, pieces, List.tail_cons, accountPieces]
        have hg : P.accountArg r.1 = P.accountArg n := by
          by_cases h : r.1 < P.numArgs
          · rw [e3 h]
          · exact hP _ _ (by omega) (by rw [e2] at h; omega)
        rw [hg]
        congr 1
        funext q
        by_cases hq : q.1 = true
        · rw [if_pos hq, if_pos hq]
        · rw [if_neg hq, if_neg hq]
          exact Rest.accounted e4 (cont := fun it => trPre P fuel false it k q.2)
            fun it j hb hrd => (ih it j k segs' _ (by omega)).1 hrd
      | @escape tl segs' h1 =>
        unfold trPre
        rw [if_neg (by omega), if_neg (by omega), if_pos rfl]
        simp only [laterPieces, pieces, List.tail_cons]
        obtain ⟨r1, r2⟩ := reads_run h1
        cases hfd : strFind 0x7B tl with
        | none =>
          dsimp only
          rw [r1 hfd]
          have e1 := pieces_chars k tl [] [0x7B]
          rw [List.append_nil] at e1
          rw [e1]
          simp only [pieces]
          rw [if_neg (by simp), accountLast]
          rfl
        | some it' =>
          obtain ⟨pre, tl', segs'', h1, h2, h3, h4⟩ := r2 it' hfd
          dsimp only
          subst h1 h2 h3
          rw [pieces_chars, ← List.cons_append, upTo_append, List.tail_cons, pieces_brace h4]
          simp only [List.length_append, List.length_cons] at hf
          simp only [accountPieces]
          congr 1
          funext r
          rw [(ih tl' (i + 2 + pre.length) k segs'' _ (by omega)).2 h4]
      | @comment tl segs' h1 =>
        unfold trPre
        rw [if_neg (by omega), if_neg (by omega), if_neg (by omega), if_neg (by simp)]
        simp only [laterPieces, pieces, List.tail_cons]
        simp only [List.length_cons] at hf
        exact Rest.accounted h1 (cont := fun it => trPre P fuel false it k st)
          fun it j hb hrd => (ih it j k segs' _ (by omega)).1 hrd
      | @other ch tl segs' c1 c2 c3 c4 h1 =>
        unfold trPre
        rw [if_neg c1, if_neg c4, if_neg c2, if_pos c3]
        simp only [laterPieces, pieces, List.tail_cons, accountPieces]
        simp only [List.length_cons] at hf
        congr 1
        funext q
        by_cases hq : q.1 = true
        · rw [if_pos hq, if_pos hq]
        · rw [if_neg hq, if_neg hq]
          exact Rest.accounted h1 (cont := fun it => trPre P fuel false it (k + 1) q.2)
            fun it j hb hrd => (ih it j (k + 1) segs' _ (by omega)).1 hrd

end Strf.Print

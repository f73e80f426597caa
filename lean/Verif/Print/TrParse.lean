import Verif.Print.Tr
import Verif.Print.TrSpec
/-!
How the parsers of tr_printer.hpp see the syntax of TrSpec.lean.
-/
namespace Strf.Print
open Strf.Tr

theorem strFind_none {c : Nat} {l : List Nat} (h : strFind c l = none) : c ∉ l := by
  induction l with
  | nil => simp
  | cons x l ih =>
    unfold strFind at h
    split_ifs at h with g
    simp only [List.mem_cons, not_or]
    exact ⟨fun e => g e.symm, ih h⟩

theorem strFind_some {c : Nat} {l l' : List Nat} (h : strFind c l = some l') :
    ∃ pre t, l = pre ++ c :: t ∧ l' = c :: t ∧ c ∉ pre := by
  induction l with
  | nil => simp [strFind] at h
  | cons x l ih =>
    unfold strFind at h
    split_ifs at h with g
    · cases h; exact ⟨[], l, by simp [g], by simp [g], by simp⟩
    · obtain ⟨pre, t, h1, h2, h3⟩ := ih h
      exact ⟨x :: pre, t, by simp [h1], h2, by simp only [List.mem_cons, not_or]; exact ⟨fun e => g e.symm, h3⟩⟩

theorem afterClose_eq (l : List Nat) : afterClose l = ((strFind 0x7D l).map List.tail).getD [] := by
  induction l with
  | nil => rfl
  | cons x l ih =>
    unfold strFind
    by_cases h : x = 0x7D
    · rw [if_pos h]; subst h; rfl
    · rw [if_neg h, ← ih]
      unfold afterClose
      rw [List.dropWhile_cons_of_pos (by simpa using h)]

theorem afterClose_length (l : List Nat) : (afterClose l).length ≤ l.length - 1 := by
  unfold afterClose
  have := (List.dropWhile_suffix (l := l) (· ≠ 0x7D)).length_le
  rw [List.length_tail]
  omega

/-- what is read from a text up to the next `{` -/
theorem reads_run {i : Nat} {l : List Nat} {segs : List Seg} (h : Reads i l segs) :
    (strFind 0x7B l = none → segs = l.map .char) ∧
    ∀ l', strFind 0x7B l = some l' → ∃ pre t segs', l = pre ++ 0x7B :: t ∧ l' = 0x7B :: t ∧ segs = pre.map .char ++ segs' ∧
      Reads (i + pre.length) (0x7B :: t) segs' := by
  induction l generalizing i segs with
  | nil =>
    cases h
    exact ⟨fun _ => rfl, fun l' h => by simp [strFind] at h⟩
  | cons x l ih =>
    by_cases hx : x = 0x7B
    · subst hx
      refine ⟨fun g => by simp [strFind] at g, fun l' g => ?_⟩
      simp [strFind] at g
      exact ⟨[], l, segs, rfl, g.symm, rfl, h⟩
    · cases h with
      | @char _ _ _ segs' hc hr =>
        obtain ⟨h1, h2⟩ := ih hr
        unfold strFind
        rw [if_neg hx]
        refine ⟨fun g => by rw [h1 g]; rfl, fun l' g => ?_⟩
        obtain ⟨pre, t, segs'', e1, e2, e3, e4⟩ := h2 l' g
        refine ⟨x :: pre, t, segs'', by rw [e1]; rfl, e2, by rw [e3]; rfl, ?_⟩
        have : i + (x :: pre).length = i + 1 + pre.length := by simp; omega
        rw [this]; exact e4
      | brace => exact absurd rfl hx
      | comment => exact absurd rfl hx
      | positional => exact absurd rfl hx
      | next => exact absurd rfl hx

/-- what is read after the `}` that the parser looked for -/
def Rest (total : Nat) (found : Option (List Nat)) (segs : List Seg) (bound : Nat) : Prop :=
  match found with
  | none => segs = []
  | some it => ∃ j, Reads j it.tail segs ∧ j + it.tail.length = total ∧ it.tail.length < bound

theorem rest_of {total j : Nat} {l : List Nat} {segs : List Seg} (h : Reads j (afterClose l) segs)
    (hj : j + (afterClose l).length = total) (bound : Nat) (hb : l.length ≤ bound) : Rest total (strFind 0x7D l) segs bound := by
  have hl := afterClose_length l
  rw [afterClose_eq] at h hj hl
  cases hf : strFind 0x7D l with
  | none => rw [hf] at h; cases h; rfl
  | some it =>
    rw [hf] at h hj hl
    obtain ⟨pre, t, h1, h2, _⟩ := strFind_some hf
    refine ⟨j, h, hj, ?_⟩
    subst h2
    have : l.length ≠ 0 := by rw [h1]; simp
    simp only [Option.map_some, Option.getD_some] at hl
    omega

/-! ## read_uint -/

theorem foldl_ge (l : List Nat) : ∀ v, v ≤ l.foldl (fun v d => v * 10 + (d - 0x30)) v := by
  induction l with
  | nil => intro v; exact Nat.le_refl v
  | cons x l ih => intro v; have := ih (v * 10 + (x - 0x30)); simp only [List.foldl_cons]; omega

theorem readUintLoop_spec (limit : Nat) (l : List Nat) (hl : ∀ c, l.head? = some c → ¬ IsDigit c) :
    ∀ (ds : List Nat) (v : Nat), (∀ d ∈ ds, IsDigit d) →
      ∃ r, readUintLoop limit v (ds ++ l) = r ∧
        (r.1 < limit ↔ ds.foldl (fun v d => v * 10 + (d - 0x30)) v < limit) ∧
        (r.1 < limit → r.1 = ds.foldl (fun v d => v * 10 + (d - 0x30)) v) ∧
        strFind 0x7D r.2 = strFind 0x7D l := by
  intro ds
  induction ds with
  | nil =>
    intro v _
    cases l with
    | nil => exact ⟨_, rfl, by simp [readUintLoop], by simp [readUintLoop], by simp [readUintLoop]⟩
    | cons c l =>
      have hc := hl c rfl
      unfold IsDigit at hc
      simp only [List.nil_append, readUintLoop]
      rw [if_pos (by omega)]
      exact ⟨_, rfl, by simp, by simp, rfl⟩
  | cons d ds ih =>
    intro v h
    have hd := h d (List.mem_cons_self ..)
    have hd' := hd
    unfold IsDigit at hd'
    have hds : ∀ x ∈ ds, IsDigit x := fun x hx => h x (List.mem_cons_of_mem _ hx)
    have hfind : ∀ (xs : List Nat), (∀ x ∈ xs, IsDigit x) → strFind 0x7D (xs ++ l) = strFind 0x7D l := by
      intro xs
      induction xs with
      | nil => intro _; rfl
      | cons x xs ihx =>
        intro hx
        have := hx x (List.mem_cons_self ..)
        unfold IsDigit at this
        rw [List.cons_append]
        rw [strFind, if_neg (by omega)]
        exact ihx fun y hy => hx y (List.mem_cons_of_mem _ hy)
    simp only [List.cons_append, readUintLoop, List.foldl_cons]
    rw [if_neg (by omega)]
    by_cases hg : v * 10 + (d - 0x30) ≥ limit
    · rw [if_pos hg]
      have := foldl_ge ds (v * 10 + (d - 0x30))
      refine ⟨_, rfl, by dsimp only; omega, by dsimp only; omega, ?_⟩
      exact hfind (d :: ds) h
    · rw [if_neg hg]
      exact ih _ hds

theorem readUint_spec (limit : Nat) {ds l : List Nat} (h0 : ds ≠ []) (hd : ∀ d ∈ ds, IsDigit d)
    (hl : ∀ c, l.head? = some c → ¬ IsDigit c) :
    ∃ r, readUint limit (ds ++ l) = some r ∧ (r.1 < limit ↔ numeral ds < limit) ∧
      (r.1 < limit → r.1 = numeral ds) ∧ strFind 0x7D r.2 = strFind 0x7D l := by
  cases ds with
  | nil => exact absurd rfl h0
  | cons d ds =>
    obtain ⟨r, h1, h2, h3, h4⟩ := readUintLoop_spec limit l hl ds (d - 0x30) fun x hx => hd x (List.mem_cons_of_mem _ hx)
    refine ⟨r, by rw [List.cons_append]; unfold readUint; dsimp only; rw [h1], ?_, ?_, h4⟩
    · rw [h2]; simp [numeral]
    · intro g; rw [h3 g]; simp [numeral]

/-! ## After an opening brace -/

/-- what follows a `{`, as the parsers distinguish it -/
inductive Brace (i : Nat) : List Nat → List Seg → Prop
  | stop : Brace i [] [.next i]
  | close {t segs} : Reads (i + 2) t segs → Brace i (0x7D :: t) (.next i :: segs)
  | digit {ch t n segs} : 0x30 ≤ ch ∧ ch ≤ 0x39 →
      (∀ limit, ∃ r, readUint limit (ch :: t) = some r ∧ (r.1 < limit ↔ n < limit) ∧ (r.1 < limit → r.1 = n) ∧
        Rest (i + 1 + (ch :: t).length) (strFind 0x7D r.2) segs (ch :: t).length) →
      Brace i (ch :: t) (.at n i :: segs)
  | escape {t segs} : Reads (i + 2) t segs → Brace i (0x7B :: t) (.brace :: segs)
  | comment {t segs} : Rest (i + 1 + (0x2D :: t).length) (strFind 0x7D t) segs (t.length + 1) →
      Brace i (0x2D :: t) (.comment :: segs)
  | other {ch t segs} : ch ≠ 0x7D → ch ≠ 0x7B → ch ≠ 0x2D → ¬ (0x30 ≤ ch ∧ ch ≤ 0x39) →
      Rest (i + 1 + (ch :: t).length) (strFind 0x7D t) segs (t.length + 1) → Brace i (ch :: t) (.next i :: segs)

theorem brace_of_reads {i : Nat} {l : List Nat} {segs : List Seg} (h : Reads i (0x7B :: l) segs) : Brace i l segs := by
  generalize hw : 0x7B :: l = w at h
  cases h with
  | done => cases hw
  | char hc _ => cases hw; exact absurd rfl hc
  | brace hr => cases hw; exact .escape hr
  | @comment _ t segs' hr =>
    cases hw
    have := afterClose_length t
    exact .comment (rest_of hr (by simp only [List.length_cons]; omega) _ (by omega))
  | @positional _ ds t segs' h0 hd hl hr =>
    cases hw
    have := afterClose_length t
    cases ds with
    | nil => exact absurd rfl h0
    | cons d ds =>
      have hdd := hd d (List.mem_cons_self ..)
      rw [List.cons_append]
      refine .digit hdd fun limit => ?_
      obtain ⟨r, e1, e2, e3, e4⟩ := readUint_spec limit h0 hd hl
      refine ⟨r, e1, e2, e3, ?_⟩
      rw [e4]
      exact rest_of hr (by simp only [List.length_cons, List.length_append]; omega) _
        (by simp only [List.length_cons, List.length_append]; omega)
  | @next _ t segs' hh hr =>
    cases hw
    have hal := afterClose_length l
    cases l with
    | nil => cases hr; exact .stop
    | cons c t =>
      obtain ⟨h1, h2, h3⟩ := hh c rfl
      by_cases hc : c = 0x7D
      · subst hc
        have e : afterClose (0x7D :: t) = t := rfl
        rw [e] at hr
        have e2 : i + (1 + (0x7D :: t).length - t.length) = i + 2 := by simp only [List.length_cons]; omega
        rw [e2] at hr
        exact .close hr
      · have e : afterClose (c :: t) = afterClose t := by
          unfold afterClose
          rw [List.dropWhile_cons_of_pos (by simpa using hc)]
        rw [e] at hr hal
        have := afterClose_length t
        exact .other hc h1 h2 h3 (rest_of hr (by simp only [List.length_cons]; omega) _ (by omega))

/-! ## Every string can be read, in one way -/

theorem reads_exists : ∀ (n : Nat) (l : List Nat), l.length ≤ n → ∀ i, ∃ segs, Reads i l segs := by
  intro n
  induction n with
  | zero => intro l h i; have := List.length_eq_zero_iff.1 (Nat.le_zero.1 h); subst this; exact ⟨[], .done⟩
  | succ n ih =>
    intro l h i
    cases l with
    | nil => exact ⟨[], .done⟩
    | cons c l =>
      simp only [List.length_cons] at h
      by_cases hc : c = 0x7B
      · subst hc
        cases l with
        | nil =>
          refine ⟨[.next i], .next (by intro c h; cases h) ?_⟩
          exact .done
        | cons d t =>
          simp only [List.length_cons] at h
          by_cases h1 : d = 0x7B
          · subst h1
            obtain ⟨segs, hs⟩ := ih t (by omega) (i + 2)
            exact ⟨_, .brace hs⟩
          · by_cases h2 : d = 0x2D
            · subst h2
              have := afterClose_length t
              obtain ⟨segs, hs⟩ := ih (afterClose t) (by omega) (i + (t.length + 2 - (afterClose t).length))
              exact ⟨_, .comment hs⟩
            · by_cases h3 : IsDigit d
              · have e := List.takeWhile_append_dropWhile (p := fun c => decide (IsDigit c)) (l := d :: t)
                generalize hds : (d :: t).takeWhile (fun c => decide (IsDigit c)) = ds at e
                generalize hr : (d :: t).dropWhile (fun c => decide (IsDigit c)) = r at e
                have hlen : r.length ≤ t.length + 1 := by
                  rw [← hr]; simpa using (List.dropWhile_suffix (l := d :: t) (fun c => decide (IsDigit c))).length_le
                have := afterClose_length r
                obtain ⟨segs, hs⟩ := ih (afterClose r) (by omega) (i + (1 + ds.length + r.length - (afterClose r).length))
                refine ⟨.at (numeral ds) i :: segs, ?_⟩
                rw [← e]
                refine .positional ?_ ?_ ?_ hs
                · intro g
                  rw [g, List.takeWhile_cons_of_pos (by simpa using h3)] at hds
                  cases hds
                · intro x hx
                  rw [← hds] at hx
                  simpa using List.all_eq_true.1 (List.all_takeWhile (p := fun c => decide (IsDigit c)) (l := d :: t)) x hx
                · intro x hx
                  rw [← hr] at hx
                  have := List.head?_dropWhile_not (fun c => decide (IsDigit c)) (d :: t)
                  rw [hx] at this
                  simpa using this
              · have := afterClose_length (d :: t)
                simp only [List.length_cons] at this
                obtain ⟨segs, hs⟩ := ih (afterClose (d :: t)) (by omega)
                  (i + (1 + (d :: t).length - (afterClose (d :: t)).length))
                refine ⟨_, .next ?_ hs⟩
                intro x hx
                cases hx
                exact ⟨h1, h2, h3⟩
      · obtain ⟨segs, hs⟩ := ih l (by omega) (i + 1)
        exact ⟨_, .char hc hs⟩

theorem numeral_unique {ds ds' l l' : List Nat} (he : ds ++ l = ds' ++ l') (hd : ∀ d ∈ ds, IsDigit d)
    (hl : ∀ c, l.head? = some c → ¬ IsDigit c) (hd' : ∀ d ∈ ds', IsDigit d) (hl' : ∀ c, l'.head? = some c → ¬ IsDigit c) :
    ds = ds' ∧ l = l' := by
  induction ds generalizing ds' with
  | nil =>
    cases ds' with
    | nil => exact ⟨rfl, by simpa using he⟩
    | cons d' ds' =>
      simp only [List.nil_append] at he
      subst he
      exact absurd (hd' d' (List.mem_cons_self ..)) (hl d' rfl)
  | cons d ds ih =>
    cases ds' with
    | nil =>
      simp only [List.nil_append] at he
      subst he
      exact absurd (hd d (List.mem_cons_self ..)) (hl' d rfl)
    | cons d' ds' =>
      simp only [List.cons_append, List.cons.injEq] at he
      obtain ⟨h1, h2⟩ := ih he.2 (fun x hx => hd x (List.mem_cons_of_mem _ hx)) fun x hx => hd' x (List.mem_cons_of_mem _ hx)
      exact ⟨by rw [he.1, h1], h2⟩

theorem reads_unique {i : Nat} {l : List Nat} {segs segs' : List Seg} (h : Reads i l segs) (h' : Reads i l segs') :
    segs = segs' := by
  induction h generalizing segs' with
  | done => cases h'; rfl
  | char hc _ ih =>
    cases h' with
    | char _ h => rw [ih h]
    | brace | comment | positional | next => exact absurd rfl hc
  | brace _ ih =>
    generalize hw : 0x7B :: 0x7B :: _ = w at h'
    cases h' with
    | done => cases hw
    | char hc _ => cases hw; exact absurd rfl hc
    | brace h => cases hw; rw [ih h]
    | comment => cases hw
    | @positional _ ds _ _ h0 hd =>
      cases ds with
      | nil => exact absurd rfl h0
      | cons d ds =>
        cases hw
        have := hd _ (List.mem_cons_self ..)
        unfold IsDigit at this; omega
    | next hh => cases hw; exact absurd rfl (hh _ rfl).1
  | comment _ ih =>
    generalize hw : 0x7B :: 0x2D :: _ = w at h'
    cases h' with
    | done => cases hw
    | char hc _ => cases hw; exact absurd rfl hc
    | brace h => cases hw
    | comment h => cases hw; rw [ih h]
    | @positional _ ds _ _ h0 hd =>
      cases ds with
      | nil => exact absurd rfl h0
      | cons d ds =>
        cases hw
        have := hd _ (List.mem_cons_self ..)
        unfold IsDigit at this; omega
    | next hh => cases hw; exact absurd rfl (hh _ rfl).2.1
  | @positional i ds l segs h0 hd hl _ ih =>
    generalize hw : 0x7B :: (ds ++ l) = w at h'
    cases h' with
    | done => cases hw
    | char hc _ => cases hw; exact absurd rfl hc
    | brace h =>
      cases ds with
      | nil => exact absurd rfl h0
      | cons d ds =>
        cases hw
        have := hd _ (List.mem_cons_self ..)
        unfold IsDigit at this; omega
    | comment h =>
      cases ds with
      | nil => exact absurd rfl h0
      | cons d ds =>
        cases hw
        have := hd _ (List.mem_cons_self ..)
        unfold IsDigit at this; omega
    | @positional _ ds' l' _ h0' hd' hl' hr' =>
      rw [List.cons.injEq] at hw
      obtain ⟨rfl, rfl⟩ := numeral_unique hw.2 hd hl hd' hl'
      rw [ih hr']
    | next hh =>
      cases ds with
      | nil => exact absurd rfl h0
      | cons d ds =>
        cases hw
        exact absurd (hd _ (List.mem_cons_self ..)) (hh _ rfl).2.2
  | @next i l segs hh _ ih =>
    generalize hw : 0x7B :: l = w at h'
    cases h' with
    | done => cases hw
    | char hc _ => cases hw; exact absurd rfl hc
    | brace h => cases hw; exact absurd rfl (hh _ rfl).1
    | comment h => cases hw; exact absurd rfl (hh _ rfl).2.1
    | @positional _ ds' l' _ h0' hd' hl' hr' =>
      cases ds' with
      | nil => exact absurd rfl h0'
      | cons d ds =>
        cases hw
        exact absurd (hd' _ (List.mem_cons_self ..)) (hh _ rfl).2.2
    | next _ hr => cases hw; rw [ih hr]

end Strf.Print

import Verif.Numpunct.CreatorLemmas
/-
Properties C25 (digit groupings count and distribute separators), C26 (constructors represent the groups given),
C48 (numpunct facets report what was set).
-/
namespace Strf.Numpunct
open Spec

/-! ### the specification itself -/

/-- The groups of `n` digits add up to `n`, none is empty, every group but the most significant one is a whole
group, and the separators (the ends of all groups but the last) are exactly the boundaries inside `n` digits. -/
theorem split_meaning (gs : List Nat) (rep : Bool) (h : Valid gs rep) (n : Nat) (hn : 1 ≤ n) :
    (split gs rep n).sum = n ∧ (∀ x ∈ split gs rep n, 1 ≤ x) ∧
    (∀ k, (∃ j, 1 ≤ j ∧ j < (split gs rep n).length ∧ k = ((split gs rep n).take j).sum) ↔
      (k < n ∧ Boundary gs rep k)) := by
  have hs : ∀ i g, groupSize gs rep i = some g → 1 ≤ g := fun i g hg => (h.2.1 g (groupSize_mem gs rep i g hg)).1
  refine ⟨splitFrom_sum _ _ _ _ _, splitFrom_pos gs rep hs _ _ _ hn, fun k => ?_⟩
  unfold split
  rw [splitFrom_cuts gs rep hs n 0 n k hn (Nat.le_refl n)]
  unfold BoundaryFrom Boundary
  simp only [Nat.zero_add]

example : Valid [3, 2] true ∧ split [3, 2] true 10 = [3, 2, 2, 2, 1] ∧ split [3, 2] false 10 = [3, 2, 5] ∧
    split [] false 10 = [10] := by decide

/-! ### C25 -/

/-- `separators_count(n)` is the number of group boundaries strictly inside `n` digits, for every grouping that
can be constructed and every `n`. -/
theorem separators_count_exact (gs : List Nat) (rep : Bool) (h : Valid gs rep) (n : Nat) :
    separatorsCount (ctor2 (args gs rep)) n = (split gs rep n).length - 1 := by
  rw [ctor2_args gs rep h]
  unfold separatorsCount
  by_cases hn : n ≤ 1
  · rw [if_pos hn]
    unfold split
    have : n = 0 ∨ n = 1 := by omega
    rcases this with rfl | rfl
    · rfl
    · simp only [splitFrom]
      cases hg : groupSize gs rep 0 with
      | none => rfl
      | some g =>
        have := (h.2.1 g (groupSize_mem gs rep 0 g hg)).1
        simp [this]
  · rw [if_neg hn, ended_enc rep gs h.2.1]
    cases gs with
    | nil => rw [split, splitFrom_nil]; rfl
    | cons g gs =>
      simp only [List.isEmpty_cons, Bool.false_eq_true, if_false]
      rw [sepLoop_enc rep (g :: gs) h.2.1 (by simp) n n 0 (by omega) (Nat.le_refl n)]
      unfold split; omega

/-- `any_separator(n)` says whether there is a separator at all. -/
theorem any_separator_exact (gs : List Nat) (rep : Bool) (h : Valid gs rep) (n : Nat) :
    anySeparator (ctor2 (args gs rep)) n = decide (separatorsCount (ctor2 (args gs rep)) n ≠ 0) := by
  rw [separators_count_exact gs rep h, ctor2_args gs rep h]
  unfold anySeparator split
  cases gs with
  | nil =>
    have : rep = false := h.2.2 rfl
    subst this
    rw [splitFrom_nil]; rfl
  | cons g gs =>
    have hg := h.2.1 g (by simp)
    have e1 : (enc rep (g :: gs) != dontRepeatLast) = true := by
      have := enc_ge_of_ne rep (g :: gs) h.2.1 (by simp)
      simp [dontRepeatLast]; omega
    have e2 : enc rep (g :: gs) % 32 = g := current_enc rep g gs hg.2
    rw [e1, e2, Bool.true_and]
    cases n with
    | zero => simp [splitFrom]
    | succ n =>
      have hs0 : groupSize (g :: gs) rep 0 = some g := by simp [groupSize]
      simp only [splitFrom, hs0]
      by_cases hle : n + 1 ≤ g
      · rw [if_pos hle]; simp; omega
      · rw [if_neg hle]
        have := splitFrom_length_pos (g :: gs) rep n (0 + 1) (n + 1 - g)
        simp only [List.length_cons]
        rw [decide_eq_decide]
        omega

/-- `distribute(n)` returns (without looping for ever) a distribution which, read as its users read it, is the
groups of `n` digits, most significant first; the highest group is not empty, and if there are middle groups
there are low groups. -/
theorem distribute_exact (gs : List Nat) (rep : Bool) (h : Valid gs rep) (n : Nat) (hn : 1 ≤ n) :
    ∃ d, distribute (ctor2 (args gs rep)) n = some d ∧ d.read = (split gs rep n).reverse ∧
      1 ≤ d.highest ∧ (d.middle ≠ 0 → revEmpty d.low = false) := by
  rw [ctor2_args gs rep h]
  unfold distribute
  rw [ended_enc rep gs h.2.1]
  cases gs with
  | nil =>
    refine ⟨_, rfl, ?_, hn, by simp⟩
    rw [split, splitFrom_nil]
    simp [Dist.read]
    rw [lowList]; rfl
  | cons g gs =>
    simp only [List.isEmpty_cons, Bool.false_eq_true, if_false]
    obtain ⟨d, e, r, k1, k2⟩ := distLoop_enc rep (g :: gs) h.2.1 (by simp) [] (by simp)
      (by have := h.1; simp at this ⊢; omega) 7 n n (by have := h.1; omega) hn (Nat.le_refl n)
    refine ⟨d, e, ?_, k1, fun hm => ?_⟩
    · rw [r, List.append_nil]; rfl
    · have := k2 hm
      simp [revEmpty, this]

example : Valid [1, 31, 5] true ∧ separatorsCount (ctor2 (args [1, 31, 5] true)) 50 = 5 ∧
    (distribute (ctor2 (args [1, 31, 5] true)) 50).map Dist.read = some [3, 5, 5, 5, 31, 1] := by
  refine ⟨by decide, by decide +kernel, by decide +kernel⟩

/-! ### C26 -/

/-- walking over a grouping with its public iterator: the groups met and whether the last one shall be
repeated. Six groups at most, so seven turns are enough. -/
def walk : Nat → Nat → List Nat × Bool
  | 0, _ => ([], false)
  | fuel + 1, w =>
    if ended w then ([], false)
    else if isLast w then ([current w], shallRepeat w)
    else
      let r := walk fuel (advance w)
      (current w :: r.1, r.2)

/-- Iterating over a constructed grouping gives back exactly the groups given and the tail rule; at each step
`is_last` is `is_final || shall_repeat_current`. -/
theorem ctor_roundtrip (gs : List Nat) (rep : Bool) (h : Valid gs rep) :
    walk 7 (ctor2 (args gs rep)) = (gs, rep) := by
  rw [ctor2_args gs rep h]
  obtain ⟨hl, hg, hr⟩ := h
  have : ∀ (fuel : Nat) (gs : List Nat), gs.length < fuel → (∀ g ∈ gs, 1 ≤ g ∧ g ≤ 31) → (gs = [] → rep = false) →
      walk fuel (enc rep gs) = (gs, rep) := by
    intro fuel
    induction fuel with
    | zero => intro gs h; omega
    | succ fuel ih =>
      intro gs hl hg hr
      unfold walk
      rw [ended_enc rep gs hg]
      cases gs with
      | nil => rw [hr rfl]; rfl
      | cons g gs =>
        have h1 := hg g (by simp)
        rw [isLast_enc rep g gs hg, current_enc rep g gs h1.2, shallRepeat_enc rep g gs hg,
          advance_enc rep g gs h1.2]
        cases gs with
        | nil => simp
        | cons g2 gs =>
          rw [ih (g2 :: gs) (by simp at hl ⊢; omega) (fun x hx => hg x (by simp [hx])) (by simp)]
          simp
  exact this 7 gs (by omega) hg hr

/-- The iterator's `is_last` is `is_final || shall_repeat_current` on every group of a constructed grouping. -/
theorem is_last_meaning (pre gs : List Nat) (g : Nat) (rep : Bool) (h : Valid (pre ++ g :: gs) rep) :
    let w := pre.foldl (fun w _ => advance w) (ctor2 (args (pre ++ g :: gs) rep))
    isLast w = (isFinal w || shallRepeat w) ∧ current w = g ∧ ended w = false := by
  rw [ctor2_args _ rep h]
  have hg := h.2.1
  clear h
  induction pre with
  | nil =>
    have h1 := hg g (by simp)
    simp only [List.nil_append, List.foldl_nil] at hg ⊢
    rw [isLast_enc rep g gs hg, isFinal_enc rep g gs hg, shallRepeat_enc rep g gs hg, current_enc rep g gs h1.2,
      ended_enc rep (g :: gs) hg]
    cases gs <;> cases rep <;> simp
  | cons a pre ih =>
    have h1 := hg a (by simp)
    simp only [List.cons_append, List.foldl_cons]
    rw [advance_enc rep a _ h1.2]
    exact ih (fun x hx => hg x (by simp at hx ⊢; exact Or.inr hx))

/-- `operator==` compares groups and tail rule. -/
theorem ctor_injective (gs gs' : List Nat) (rep rep' : Bool) (h : Valid gs rep) (h' : Valid gs' rep') :
    ctor2 (args gs rep) = ctor2 (args gs' rep') ↔ gs = gs' ∧ rep = rep' := by
  constructor
  · intro e
    have := ctor_roundtrip gs rep h
    rw [e, ctor_roundtrip gs' rep' h'] at this
    cases this; exact ⟨rfl, rfl⟩
  · rintro ⟨rfl, rfl⟩; rfl

/-- A constructed grouping is a 32-bit word, and `empty()` holds exactly for the grouping without groups. -/
theorem ctor_word (gs : List Nat) (rep : Bool) (h : Valid gs rep) :
    ctor2 (args gs rep) < 2 ^ 32 ∧ isEmpty (ctor2 (args gs rep)) = gs.isEmpty ∧
      emptyWord = ctor2 (args [] false) := by
  refine ⟨?_, ?_, rfl⟩
  · rw [ctor2_args gs rep h]
    have h1 := enc_lt rep gs h.2.1
    have h2 := pow32_mono _ _ h.1
    have h3 : (32 : Nat) ^ 6 = 2 ^ 30 := by decide
    omega
  · rw [ctor2_args gs rep h]
    cases gs with
    | nil => rw [h.2.2 rfl]; rfl
    | cons g gs =>
      have := enc_ge_of_ne rep (g :: gs) h.2.1 (by simp)
      simp [isEmpty, dontRepeatLast]; omega

/-- `digits_grouping_creator`, `finish_no_more_sep()`: the groups pushed, not repeated. -/
theorem creator_no_more_sep (gs : List Nat) (h : Valid gs false) :
    ((gs.map Int.ofNat).foldl Creator.push Creator.init).finishNoMoreSep = ctor2 (args gs false) ∧
    ((gs.map Int.ofNat).foldl Creator.push Creator.init).failed = false := by
  have e := pushAll_ok [] gs (by simp) h.2.1 (by simpa using h.1)
  rw [List.append_nil] at e
  have e' : (gs.map Int.ofNat).foldl Creator.push Creator.init = ⟨revEnc gs.reverse, false⟩ := e
  rw [e', ctor2_args gs false h, finishNo_ok gs h.1 h.2.1]
  exact ⟨rfl, rfl⟩

/-- `digits_grouping_creator`, `finish()`: a grouping with the same group sizes for ever (equal groups at the end
are merged into the repeated one), hence the same splitting of every number of digits. -/
theorem creator_finish (gs : List Nat) (hne : gs ≠ []) (h : Valid gs true) :
    ((gs.map Int.ofNat).foldl Creator.push Creator.init).failed = false ∧
    ∃ gs', Valid gs' true ∧
      ((gs.map Int.ofNat).foldl Creator.push Creator.init).finish = ctor2 (args gs' true) ∧
      (∀ i, groupSize gs' true i = groupSize gs true i) ∧ (∀ n, split gs' true n = split gs true n) := by
  have e := pushAll_ok [] gs (by simp) h.2.1 (by simpa using h.1)
  rw [List.append_nil] at e
  have e' : (gs.map Int.ofNat).foldl Creator.push Creator.init = ⟨revEnc gs.reverse, false⟩ := e
  rw [e']
  refine ⟨rfl, squeeze gs, squeeze_valid gs hne h, ?_, squeeze_groupSize gs hne, fun n => ?_⟩
  · rw [finish_ok gs hne h.1 h.2.1, ctor2_args _ true (squeeze_valid gs hne h)]
  · exact splitFrom_congr _ _ _ _ (squeeze_groupSize gs hne) _ _ _

/-- Groups out of range, or more than six of them, make the creator fail and give the empty grouping; without any
group the result is the empty grouping too. -/
theorem creator_invalid (gs : List Int) (h : 6 < gs.length ∨ ∃ g ∈ gs, g < 1 ∨ 31 < g) :
    let c := gs.foldl Creator.push Creator.init
    c.failed = true ∧ c.finish = emptyWord ∧ c.finishNoMoreSep = emptyWord := by
  have e : (gs.foldl Creator.push Creator.init).failed = true :=
    pushAll_bad [] gs (by simp) (by simp) (by simpa using h)
  refine ⟨e, ?_, ?_⟩
  · unfold Creator.finish; rw [e]; rfl
  · unfold Creator.finishNoMoreSep; rw [e]; rfl

theorem creator_no_groups : Creator.init.finish = emptyWord ∧ Creator.init.finishNoMoreSep = emptyWord := by
  decide

/-- "creator.finish() == digits_grouping(groups...)" does not hold when the last groups are equal: the objects
compare different although they group alike. -/
theorem creator_equality_wrong :
    ([3, 3].foldl Creator.push Creator.init).finish ≠ ctor2 (args [3, 3] true) ∧
    ([3, 3].foldl Creator.push Creator.init).finish = ctor2 (args [3] true) := by decide +kernel

/-- From a C string: the groups, the last one repeated. -/
theorem cstr_repeat (gs : List Nat) (hne : gs ≠ []) (h : Valid gs true) :
    ∃ gs', Valid gs' true ∧ ctorStr gs = ctor2 (args gs' true) ∧
      (∀ i, groupSize gs' true i = groupSize gs true i) ∧ (∀ n, split gs' true n = split gs true n) := by
  have := (creator_finish gs hne h).2
  have e : ctorStr gs = ((gs.map Int.ofNat).foldl Creator.push Creator.init).finish := by
    have := strLoop_groups Creator.init gs [] (fun g hg => by have := h.2.1 g hg; omega)
    rw [List.append_nil] at this
    exact this
  rwa [e]

/-- From a C string ending in a character with the high bit set (`'\xFF'`): the groups, not repeated. What
follows that character is not looked at. -/
theorem cstr_no_repeat (gs rest : List Nat) (ch : Nat) (hch : 128 ≤ ch ∧ ch < 256) (h : Valid gs false) :
    ctorStr (gs ++ ch :: rest) = ctor2 (args gs false) := by
  unfold ctorStr
  rw [strLoop_groups Creator.init gs _ (fun g hg => by have := h.2.1 g hg; omega), strLoop, if_neg (by omega),
    if_pos (by omega)]
  exact (creator_no_more_sep gs h).1

/-- From a C string with a character that is not a group size (32 to 127), or with more than six groups: the
empty grouping. -/
theorem cstr_invalid (gs rest : List Nat) (hgs : ∀ g ∈ gs, 1 ≤ g ∧ g ≤ 127)
    (hrest : rest = [] ∨ ∃ ch tl, rest = ch :: tl ∧ 128 ≤ ch ∧ ch < 256)
    (h : 6 < gs.length ∨ ∃ g ∈ gs, 31 < g) : ctorStr (gs ++ rest) = emptyWord := by
  unfold ctorStr
  rw [strLoop_groups Creator.init gs _ hgs]
  obtain ⟨h1, h2, h3⟩ := creator_invalid (gs.map Int.ofNat) (by
    rcases h with h | ⟨g, hg, h⟩
    · left; simpa using h
    · right; exact ⟨Int.ofNat g, List.mem_map_of_mem hg, Or.inr (by simp; omega)⟩)
  rcases hrest with rfl | ⟨ch, tl, rfl, hc⟩
  · exact h2
  · rw [strLoop, if_neg (by omega), if_pos (by omega)]
    exact h3

/-- every way to obtain a `digits_grouping` -/
inductive Obtainable : Nat → Prop
  | default : Obtainable emptyWord
  | ctor (gs : List Nat) (rep : Bool) (h : Valid gs rep) : Obtainable (ctor2 (args gs rep))
  | creator (gs : List Int) : Obtainable (gs.foldl Creator.push Creator.init).finish
  | creatorNo (gs : List Int) : Obtainable (gs.foldl Creator.push Creator.init).finishNoMoreSep
  | cstr (s : List Nat) (h : ∀ ch ∈ s, ch < 256) : Obtainable (ctorStr s)

theorem creator_results (gs : List Int) :
    (∃ gs' rep, Valid gs' rep ∧ (gs.foldl Creator.push Creator.init).finish = ctor2 (args gs' rep)) ∧
    (∃ gs' rep, Valid gs' rep ∧ (gs.foldl Creator.push Creator.init).finishNoMoreSep = ctor2 (args gs' rep)) := by
  by_cases hb : 6 < gs.length ∨ ∃ g ∈ gs, g < 1 ∨ 31 < g
  · obtain ⟨_, h2, h3⟩ := creator_invalid gs hb
    exact ⟨⟨[], false, by decide, h2⟩, ⟨[], false, by decide, h3⟩⟩
  · have hl : gs.length ≤ 6 := by
      by_cases h : 6 < gs.length
      · exact absurd (Or.inl h) hb
      · omega
    have hg : ∀ g ∈ gs, 1 ≤ g ∧ g ≤ 31 := by
      intro g hm
      have : ¬ (g < 1 ∨ 31 < g) := fun h => hb (Or.inr ⟨g, hm, h⟩)
      omega
    obtain ⟨ns, rfl, hv⟩ : ∃ ns : List Nat, gs = ns.map Int.ofNat ∧ ∀ g ∈ ns, 1 ≤ g ∧ g ≤ 31 := by
      refine ⟨gs.map Int.toNat, ?_, ?_⟩
      · rw [List.map_map]
        conv => lhs; rw [← List.map_id gs]
        apply List.map_congr_left
        intro g hm
        have := hg g hm
        simp; omega
      · intro g hm
        obtain ⟨x, hx, rfl⟩ := List.mem_map.mp hm
        have := hg x hx; omega
    rw [List.length_map] at hl
    refine ⟨?_, ⟨ns, false, ⟨hl, hv, fun _ => rfl⟩, (creator_no_more_sep ns ⟨hl, hv, fun _ => rfl⟩).1⟩⟩
    by_cases hne : ns = []
    · subst hne; exact ⟨[], false, by decide, rfl⟩
    · obtain ⟨_, gs', hv', e, _⟩ := creator_finish ns hne ⟨hl, hv, fun h => absurd h hne⟩
      exact ⟨gs', true, hv', e⟩

/-- Whatever way a `digits_grouping` was obtained, it is one of the groupings described by the theorems above. -/
theorem obtainable_valid (w : Nat) (h : Obtainable w) : ∃ gs rep, Valid gs rep ∧ w = ctor2 (args gs rep) := by
  cases h with
  | default => exact ⟨[], false, by decide, rfl⟩
  | ctor gs rep h => exact ⟨gs, rep, h, rfl⟩
  | creator gs => exact (creator_results gs).1
  | creatorNo gs => exact (creator_results gs).2
  | cstr s hs =>
    have : ∀ (s : List Nat) (pushed : List Int), ∃ gs rep, Valid gs rep ∧
        strLoop (pushed.foldl Creator.push Creator.init) s = ctor2 (args gs rep) := by
      intro s
      induction s with
      | nil => intro pushed; exact (creator_results pushed).1
      | cons ch s ih =>
        intro pushed
        rw [strLoop]
        split
        · exact (creator_results pushed).1
        · split
          · exact (creator_results pushed).2
          · have := ih (pushed ++ [(ch : Int)])
            rwa [List.foldl_append, List.foldl_cons, List.foldl_nil] at this
    exact this s []

example : Obtainable (ctorStr [3, 2, 0xFF]) ∧ ctorStr [3, 2, 0xFF] = ctor2 (args [3, 2] false) ∧
    walk 7 (ctorStr [3, 2, 0xFF]) = ([3, 2], false) ∧ ctorStr [3, 127] = emptyWord :=
  ⟨.cstr _ (by decide), by decide +kernel, by decide +kernel, by decide +kernel⟩

/-! ### C48 -/

/-- `numpunct`: each setter changes what its getter returns and nothing else, and `operator==` compares all
three. -/
theorem numpunct_facet_exact (f g : Facet) (w c : Nat) :
    (f.setGrouping w).getGrouping = w ∧ (f.setGrouping w).getSep = f.getSep ∧
      (f.setGrouping w).getPoint = f.getPoint ∧
    (f.setSep c).getSep = c ∧ (f.setSep c).getGrouping = f.getGrouping ∧ (f.setSep c).getPoint = f.getPoint ∧
    (f.setPoint c).getPoint = c ∧ (f.setPoint c).getGrouping = f.getGrouping ∧
      (f.setPoint c).getSep = f.getSep ∧
    (f.eq g = true ↔ f.getGrouping = g.getGrouping ∧ f.getSep = g.getSep ∧ f.getPoint = g.getPoint) := by
  refine ⟨rfl, rfl, rfl, rfl, rfl, rfl, rfl, rfl, rfl, ?_⟩
  simp only [Facet.eq, Facet.getGrouping, Facet.getSep, Facet.getPoint, Bool.and_eq_true, beq_iff_eq]
  constructor
  · rintro ⟨⟨a, b⟩, c⟩; exact ⟨a, c, b⟩
  · rintro ⟨a, b, c⟩; exact ⟨⟨a, c⟩, b⟩

/-- The decimal point set on a `no_grouping` is not the one it reports (docs/ref_numpunct.adoc says the only
reason to use `no_grouping` is to change the decimal point). -/
theorem no_grouping_point_wrong : ∃ (f : NoGrouping) (c : Nat), (f.setPoint c).getPoint ≠ c :=
  ⟨⟨0x2E⟩, 0x2C, by decide⟩

end Strf.Numpunct

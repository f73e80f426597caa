import Verif.Facets.Model
/-!
# C55: the facet in force
-/
namespace Strf.Facets
variable {C T V : Type} [DecidableEq C]

/-! ## Specification -/

mutual
/-- The facets in a pack, in the order written, each with the tags for which it is allowed: all, unless it is inside
constrained elements; then those that all their filters accept. -/
def Fpe.written : Fpe C T V → List (C × (T → Bool) × V)
  | .facet c v => [(c, fun _ => true, v)]
  | .constrained f e => e.written.map fun x => (x.1, fun t => f t && x.2.1 t, x.2.2)
  | .ref e => e.written
  | .pack es => writtenAll es
def writtenAll : List (Fpe C T V) → List (C × (T → Bool) × V)
  | [] => []
  | e :: es => e.written ++ writtenAll es
end

/-- The facets of category `cat` that apply to `tag`, in the order written. -/
def applicable (cat : C) (tag : T) (l : List (C × (T → Bool) × V)) : List V :=
  (l.filter fun x => decide (x.1 = cat) && x.2.1 tag).map fun x => x.2.2

/-- The rule: the last applicable facet written; if there is none, the default of the category. -/
def InForce (dflt : C → V) (cat : C) (tag : T) (es : List (Fpe C T V)) (v : V) : Prop :=
  (∃ before, applicable cat tag (writtenAll es) = before ++ [v]) ∨ applicable cat tag (writtenAll es) = [] ∧ v = dflt cat

theorem InForce.unique {dflt : C → V} {cat : C} {tag : T} {es : List (Fpe C T V)} {v w : V} (h : InForce dflt cat tag es v)
    (k : InForce dflt cat tag es w) : v = w := by
  rcases h with ⟨a, h⟩ | ⟨h, hv⟩ <;> rcases k with ⟨b, k⟩ | ⟨k, hw⟩
  · have := h.symm.trans k
    simpa using (List.append_inj' this rfl).2
  · rw [k] at h; simp at h
  · rw [k] at h; simp at h
  · rw [hv, hw]

/-! ## Proofs -/

theorem applicable_append (cat : C) (tag : T) (a b : List (C × (T → Bool) × V)) :
    applicable cat tag (a ++ b) = applicable cat tag a ++ applicable cat tag b := by
  simp [applicable]

theorem applicable_constrained (cat : C) (tag : T) (f : T → Bool) (l : List (C × (T → Bool) × V)) :
    applicable cat tag (l.map fun x => (x.1, (fun t => f t && x.2.1 t), x.2.2)) =
      if f tag then applicable cat tag l else [] := by
  induction l with
  | nil => cases h : f tag <;> simp [applicable]
  | cons x l ih =>
    unfold applicable at *
    simp only [List.map_cons, List.filter_cons]
    by_cases hf : f tag = true
    · rw [if_pos hf] at ih ⊢
      simp only [hf, Bool.true_and]
      by_cases hx : (decide (x.1 = cat) && x.2.1 tag) = true
      · simp only [hx, if_true, List.map_cons]; rw [ih]
      · simp only [hx]; exact ih
    · rw [if_neg hf] at ih ⊢
      have hf' : f tag = false := by simpa using hf
      simp only [hf', Bool.false_and, Bool.and_false]
      exact ih

theorem best_append (l : List (Nat × V)) (hl : (l.map Prod.fst).Pairwise (· < ·)) : ∀ r, (best l).map Prod.snd = r →
    r = l.getLast?.map Prod.snd := by
  intro r hr
  rw [← hr]
  clear hr
  congr 1
  induction l with
  | nil => rfl
  | cons x l ih =>
    simp only [List.map_cons, List.pairwise_cons] at hl
    have ih := ih hl.2
    unfold best
    rw [ih]
    cases hq : l.getLast? with
    | none =>
      have : l = [] := List.getLast?_eq_none_iff.mp hq
      subst this; rfl
    | some y =>
      have hm : y ∈ l := List.mem_of_getLast? hq
      have := hl.1 y.1 (List.mem_map.mpr ⟨y, hm, rfl⟩)
      simp only [better, if_pos this]
      rw [List.getLast?_cons, hq]; rfl

mutual
theorem has_spec (cat : C) (tag : T) : (e : Fpe C T V) → (e.has cat tag = true ↔ applicable cat tag e.written ≠ [])
  | .facet c v => by
    unfold Fpe.has Fpe.written applicable
    by_cases h : cat = c
    · subst h; simp
    · simp [h, Ne.symm h]
  | .constrained f e => by
    unfold Fpe.has Fpe.written
    rw [applicable_constrained, Bool.and_eq_true, has_spec cat tag e]
    cases f tag <;> simp
  | .ref e => by unfold Fpe.has Fpe.written; exact has_spec cat tag e
  | .pack es => by unfold Fpe.has Fpe.written; exact hasAny_spec cat tag es
theorem hasAny_spec (cat : C) (tag : T) : (es : List (Fpe C T V)) →
    (hasAny cat tag es = true ↔ applicable cat tag (writtenAll es) ≠ [])
  | [] => by simp [hasAny, writtenAll, applicable]
  | e :: es => by
    unfold hasAny writtenAll
    rw [applicable_append, Bool.or_eq_true, has_spec cat tag e, hasAny_spec cat tag es]
    constructor
    · rintro (h | h) h0 <;> simp_all
    · intro h
      by_cases h1 : applicable cat tag e.written = []
      · right; intro h2; exact h (by rw [h1, h2]; rfl)
      · left; exact h1
end

theorem viable_ranks (dflt : C → V) (cat : C) (tag : T) : ∀ (es : List (Fpe C T V)) (i : Nat),
    ((viable dflt cat tag i es).map Prod.fst).Pairwise (· < ·) ∧ ∀ x ∈ viable dflt cat tag i es, i ≤ x.1
  | [], i => by simp [viable]
  | e :: es, i => by
    obtain ⟨h1, h2⟩ := viable_ranks dflt cat tag es (i + 1)
    unfold viable
    split
    · refine ⟨?_, ?_⟩
      · simp only [List.map_cons, List.pairwise_cons]
        refine ⟨?_, h1⟩
        intro a ha
        obtain ⟨x, hx, rfl⟩ := List.mem_map.mp ha
        have := h2 x hx; omega
      · intro x hx
        rcases List.mem_cons.mp hx with rfl | hx
        · exact Nat.le_refl _
        · have := h2 x hx; omega
    · exact ⟨h1, fun x hx => by have := h2 x hx; omega⟩

mutual
theorem get_spec (dflt : C → V) (cat : C) (tag : T) : (e : Fpe C T V) → e.has cat tag = true →
    (applicable cat tag e.written).getLast? = some (e.get dflt cat tag)
  | .facet c v, h => by
    unfold Fpe.has at h
    unfold Fpe.written Fpe.get applicable
    have : cat = c := by simpa using h
    subst this; simp
  | .constrained f e, h => by
    unfold Fpe.has at h
    rw [Bool.and_eq_true] at h
    unfold Fpe.written Fpe.get
    rw [applicable_constrained, if_pos h.1]
    exact get_spec dflt cat tag e h.2
  | .ref e, h => by
    unfold Fpe.has at h
    unfold Fpe.written Fpe.get
    exact get_spec dflt cat tag e h
  | .pack es, h => by
    have h0 := (has_spec cat tag (.pack es)).mp h
    unfold Fpe.written at h0
    unfold Fpe.written Fpe.get
    rw [best_append _ (viable_ranks dflt cat tag es 0).1 _ rfl, viable_spec dflt cat tag es 0]
    cases hq : (applicable cat tag (writtenAll es)).getLast? with
    | none => exact absurd (List.getLast?_eq_none_iff.mp hq) h0
    | some v => rfl
theorem viable_spec (dflt : C → V) (cat : C) (tag : T) : (es : List (Fpe C T V)) → (i : Nat) →
    (viable dflt cat tag i es).getLast?.map Prod.snd = (applicable cat tag (writtenAll es)).getLast?
  | [], i => by simp [viable, writtenAll, applicable]
  | e :: es, i => by
    have ih := viable_spec dflt cat tag es (i + 1)
    unfold viable writtenAll
    rw [applicable_append]
    by_cases h : e.has cat tag = true
    · rw [if_pos h]
      have he := get_spec dflt cat tag e h
      rw [List.getLast?_cons, List.getLast?_append]
      cases hq : (viable dflt cat tag (i + 1) es).getLast? with
      | none =>
        rw [hq] at ih
        rw [← ih, he]; rfl
      | some y =>
        rw [hq] at ih
        rw [← ih]; rfl
    · rw [if_neg h]
      have : applicable cat tag e.written = [] := by
        by_cases h2 : applicable cat tag e.written = []
        · exact h2
        · exact absurd ((has_spec cat tag e).mpr h2) h
      rw [this]
      simpa using ih
end

/-! ## Theorems -/

/-- C55: get_facet<Category, Tag>(pack) is the last facet written of that category that applies to the tag, however the pack is
nested; the default of the category if there is none. -/
theorem get_facet_exact (dflt : C → V) (cat : C) (tag : T) (es : List (Fpe C T V)) :
    InForce dflt cat tag es (getFacet dflt cat tag es) := by
  by_cases h : (Fpe.pack es).has cat tag = true
  · left
    have := get_spec dflt cat tag (.pack es) h
    unfold Fpe.written at this
    exact List.getLast?_eq_some_iff.mp this
  · right
    have h1 : applicable cat tag (writtenAll es) = [] := by
      by_cases h2 : applicable cat tag (writtenAll es) = []
      · exact h2
      · refine absurd ((has_spec cat tag (Fpe.pack es)).mpr ?_) h
        unfold Fpe.written; exact h2
    refine ⟨h1, ?_⟩
    unfold getFacet Fpe.get
    rw [best_append _ (viable_ranks dflt cat tag es 0).1 _ rfl, viable_spec, h1]
    rfl

theorem writtenAll_cons (e : Fpe C T V) (es : List (Fpe C T V)) : writtenAll (e :: es) = e.written ++ writtenAll es := by
  simp only [writtenAll]

theorem writtenAll_append (a b : List (Fpe C T V)) : writtenAll (a ++ b) = writtenAll a ++ writtenAll b := by
  induction a with
  | nil => rfl
  | cons e a ih => simp [writtenAll, ih]

/-- A pack whose list of facets, as written, is the same gives the same facets: nesting and references do not matter. -/
theorem nesting_irrelevant (dflt : C → V) (cat : C) (tag : T) (a b : List (Fpe C T V)) (h : writtenAll a = writtenAll b) :
    getFacet dflt cat tag a = getFacet dflt cat tag b := by
  refine InForce.unique (get_facet_exact dflt cat tag a) ?_
  have := get_facet_exact dflt cat tag b
  unfold InForce at *
  rw [h]; exact this

/-- C55: later facets override the earlier ones for the tags they apply to, and only for those; so do the facets of a call
those given with `.with()`, the ones of the inner strf::with(...) those of the outer, the ones of the later `.with()` those of
the earlier. `a` and `b` are any two lists of facets. -/
theorem later_overrides (dflt : C → V) (cat : C) (tag : T) (a b : List (Fpe C T V)) :
    ((Fpe.pack b).has cat tag = true → getFacet dflt cat tag (a ++ b) = getFacet dflt cat tag b) ∧
    ((Fpe.pack b).has cat tag = false → getFacet dflt cat tag (a ++ b) = getFacet dflt cat tag a) := by
  have ha := get_facet_exact dflt cat tag a
  have hb := get_facet_exact dflt cat tag b
  constructor
  · intro h
    refine InForce.unique (get_facet_exact dflt cat tag (a ++ b)) ?_
    have h0 := (has_spec cat tag (.pack b)).mp h
    unfold Fpe.written at h0
    rcases hb with ⟨l, hb⟩ | ⟨hb, _⟩
    · left
      rw [writtenAll_append, applicable_append, hb]
      exact ⟨applicable cat tag (writtenAll a) ++ l, by simp⟩
    · exact absurd hb h0
  · intro h
    have h0 : applicable cat tag (writtenAll b) = [] := by
      by_cases h2 : applicable cat tag (writtenAll b) = []
      · exact h2
      · have := (has_spec cat tag (.pack b)).mpr (by unfold Fpe.written; exact h2)
        rw [h] at this; cases this
    refine InForce.unique (get_facet_exact dflt cat tag (a ++ b)) ?_
    unfold InForce at *
    rw [writtenAll_append, applicable_append, h0, List.append_nil]
    exact ha

/-- the ways in which packs are put together all mean the same: one list after the other -/
theorem combined_facets (dflt : C → V) (cat : C) (tag : T) (a b : List (Fpe C T V)) :
    getFacet dflt cat tag (callFacets a b) = getFacet dflt cat tag (a ++ b) ∧
    getFacet dflt cat tag (childFacets a b) = getFacet dflt cat tag (a ++ b) ∧
    ∀ calls, getFacet dflt cat tag (withAll a calls) = getFacet dflt cat tag (a ++ calls.flatten) := by
  refine ⟨nesting_irrelevant _ _ _ _ _ ?_, nesting_irrelevant _ _ _ _ _ ?_, ?_⟩
  · rw [writtenAll_append]; unfold callFacets; rw [writtenAll_cons]; simp only [Fpe.written]
  · rw [writtenAll_append]
    simp [childFacets, writtenAll, Fpe.written]
  · intro calls
    have : withAll a calls = a ++ calls.flatten := by
      unfold withAll
      induction calls generalizing a with
      | nil => simp
      | cons c calls ih => rw [List.foldl_cons, ih]; simp [merge]
    rw [this]

/-- C55: a constrained facet has no effect on the tags that its filter rejects, wherever it is in the pack. -/
theorem constrained_no_effect (dflt : C → V) (cat : C) (tag : T) (f : T → Bool) (e : Fpe C T V) (hf : f tag = false)
    (a b : List (Fpe C T V)) :
    getFacet dflt cat tag (a ++ .constrained f e :: b) = getFacet dflt cat tag (a ++ b) := by
  refine InForce.unique (get_facet_exact dflt cat tag _) ?_
  have := get_facet_exact dflt cat tag (a ++ b)
  unfold InForce at *
  have h : applicable cat tag (writtenAll (a ++ .constrained f e :: b)) = applicable cat tag (writtenAll (a ++ b)) := by
    rw [writtenAll_append, writtenAll_append, applicable_append, applicable_append]
    rw [writtenAll_cons, applicable_append]
    simp only [Fpe.written]
    rw [applicable_constrained, hf]
    rfl
  rw [h]; exact this

/-- C55: a facet has no effect on other categories. -/
theorem other_category_no_effect (dflt : C → V) (cat cat' : C) (tag : T) (v : V) (hc : cat' ≠ cat) (a b : List (Fpe C T V)) :
    getFacet dflt cat tag (a ++ .facet cat' v :: b) = getFacet dflt cat tag (a ++ b) := by
  refine InForce.unique (get_facet_exact dflt cat tag _) ?_
  have := get_facet_exact dflt cat tag (a ++ b)
  unfold InForce at *
  have h : applicable cat tag (writtenAll (a ++ .facet cat' v :: b)) = applicable cat tag (writtenAll (a ++ b)) := by
    rw [writtenAll_append, writtenAll_append, applicable_append, applicable_append]
    rw [writtenAll_cons, applicable_append]
    simp only [Fpe.written]
    have : applicable cat tag [(cat', (fun _ => true), v)] = ([] : List V) := by
      simp [applicable, hc]
    rw [this]; rfl
  rw [h]; exact this

/-- C55: what prints an argument: the overriding facet in force for its type if the type is overridable, and the argument's own
definition if not, or if there is no such facet. -/
theorem printed_by_exact {R : Type} (overriderCat : R → C) (tagOf : R → T) (isDontOverride : V → Bool) (dflt : C → V)
    (hd : ∀ r, isDontOverride (dflt (overriderCat r)) = true) (overridable : Bool) (rep : R) (fp : List (Fpe C T V)) :
    (overridable = false → printedBy overriderCat tagOf isDontOverride dflt overridable rep fp = none) ∧
    (applicable (overriderCat rep) (tagOf rep) (writtenAll fp) = [] →
      printedBy overriderCat tagOf isDontOverride dflt overridable rep fp = none) ∧
    (∀ before v, overridable = true → applicable (overriderCat rep) (tagOf rep) (writtenAll fp) = before ++ [v] →
      isDontOverride v = false → printedBy overriderCat tagOf isDontOverride dflt overridable rep fp = some v) := by
  refine ⟨fun h => by rw [h]; rfl, ?_, ?_⟩
  · intro h
    have := InForce.unique (get_facet_exact dflt (overriderCat rep) (tagOf rep) fp) (.inr ⟨h, rfl⟩)
    unfold printedBy
    rw [this, hd]
    cases overridable <;> rfl
  · intro before v ho h hv
    have := InForce.unique (get_facet_exact dflt (overriderCat rep) (tagOf rep) fp) (.inl ⟨before, h⟩)
    unfold printedBy
    rw [this, hv, ho]
    rfl

/-- two categories; tags are numbers; values are strings. The constrained facet applies to even tags. -/
example :
    let p : List (Fpe Nat Nat String) := [.facet 0 "a", .pack [.facet 1 "b", .constrained (· % 2 == 0) (.pack [.facet 0 "c", .facet 1 "d"])], .ref (.facet 1 "e")]
    getFacet (fun _ => "default") 0 4 p = "c" ∧ getFacet (fun _ => "default") 0 5 p = "a" ∧
      getFacet (fun _ => "default") 1 4 p = "e" ∧ getFacet (fun _ => "default") 2 4 p = "default" := by decide +kernel

end Strf.Facets

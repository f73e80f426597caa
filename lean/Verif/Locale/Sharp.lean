import Verif.Locale.Props
/-!
# C71: exactly which locales are misread
-/
namespace Strf.Locale
open Strf.Numpunct Strf.Numpunct.Spec

/-- C71, on POSIX systems, for every locale whose grouping can be represented: the digits are grouped as the locale says, except where `char` is signed and
the grouping says, after at least one group, that there is no further grouping (CHAR_MAX), if there is a separator. -/
theorem locale_numpunct_iff (c : Conv) (hc : c.Ok) (charMax : Nat) (hm : charMax = 127 ∨ charMax = 255)
    (hr : Representable (groupsOf charMax c.grouping).1) (p q : Sym) (hp : Begins c.codeset c.decimalPoint p) (hq : Begins c.codeset c.thousandsSep q) :
    ∃ f, localeNumpunct c = some f ∧ f.getPoint = p.point ∧
      (Groups f (groupsOf charMax c.grouping).1 (groupsOf charMax c.grouping).2 q.separator ↔
        ¬ (charMax = 127 ∧ 127 ∈ c.grouping ∧ (groupsOf charMax c.grouping).1 ≠ [] ∧ q.separator ≠ none)) := by
  by_cases hx : charMax = 127 ∧ 127 ∈ c.grouping
  · obtain ⟨rfl, hin⟩ := hx
    -- the groups before the first 127
    have shape : ∀ s : List Nat, 127 ∈ s → ∃ gs rest, s = gs ++ 127 :: rest ∧ groupsOf 127 s = (gs, false) := by
      intro s
      induction s with
      | nil => intro h; cases h
      | cons g t ih =>
        intro h
        rw [groupsOf]
        by_cases hg : g = 127
        · exact ⟨[], t, by rw [hg]; rfl, by rw [if_pos hg]⟩
        · obtain ⟨gs, rest, h1, h2⟩ := ih (by rcases List.mem_cons.mp h with h | h; exact absurd h.symm hg; exact h)
          exact ⟨g :: gs, rest, by rw [h1]; rfl, by rw [if_neg hg, h2]⟩
    obtain ⟨gs, rest, h1, h2⟩ := shape _ hin
    rw [h2] at hr ⊢
    dsimp only at hr ⊢
    have hempty : ctorStr c.grouping = emptyWord := by
      rw [h1]
      unfold ctorStr
      rw [strLoop_groups Creator.init gs _ (fun g hg => by have := hr.2 g hg; omega), strLoop, if_neg (by omega), if_neg (by omega)]
      have key : ∀ (s : List Nat) (cr : Creator), cr.failed = true → strLoop cr s = emptyWord := by
        intro s
        induction s with
        | nil => intro cr h; simp [strLoop, Creator.finish, h]
        | cons x s ih =>
          intro cr h
          rw [strLoop]
          split_ifs
          · simp [Creator.finish, h]
          · simp [Creator.finishNoMoreSep, h]
          · exact ih _ (push_bad cr x (.inl h))
      exact key _ _ (push_bad _ _ (.inr (.inr (.inl (by decide)))))
    unfold localeNumpunct makeNumpunct
    rw [makePoint_ok hc.1 hp, Option.bind_some]
    dsimp only
    rw [hempty, if_pos (by rfl)]
    refine ⟨_, rfl, rfl, ?_⟩
    have hno : ∀ gs' rep', Valid gs' rep' → emptyWord = ctor2 (args gs' rep') → gs' = [] := by
      intro gs' rep' v e
      have := (ctor_word gs' rep' v).2.1
      rw [← e] at this
      cases gs' with
      | nil => rfl
      | cons g t => cases this
    constructor
    · rintro ⟨gs', rep', v, e, h⟩ ⟨-, -, hne, hsep⟩
      have h0 := hno gs' rep' v e
      subst h0
      cases hq' : q.separator with
      | none => exact hsep hq'
      | some ch =>
        rw [hq'] at h
        cases gs with
        | nil => exact hne rfl
        | cons g t =>
          have hg := hr.2 g (by simp)
          have h := h.1 (g + 1)
          rw [split_none] at h
          have e2 : split (g :: t) false (g + 1) ≠ [g + 1] := by
            intro h
            have hl := congrArg List.head? h
            unfold split at hl
            rw [splitFrom] at hl
            simp [groupSize] at hl
          exact e2 h.symm
    · intro h
      refine ⟨[], false, by decide, rfl, ?_⟩
      cases hq' : q.separator with
      | none => exact fun n => split_none n false
      | some ch =>
        have : gs = [] := by
          by_contra hne
          exact h ⟨rfl, hin, hne, by rw [hq']; simp⟩
        subst this
        exact ⟨fun n => rfl, fun h => absurd rfl h⟩
  · obtain ⟨f, h1, h2, h3⟩ := locale_numpunct_exact_partial c hc charMax hm hr (fun h hh => hx ⟨h, hh⟩) p q hp hq
    exact ⟨f, h1, h2, iff_of_true h3 fun h => hx ⟨h.1, h.2.1⟩⟩

/-- both cases: `\3` and `\3\177` with the separator ',' -/
example : groupsOf 127 [3] = ([3], true) ∧ groupsOf 127 [3, 127] = ([3], false) ∧ Representable [3] ∧ Sym.separator (.char 44) = some 44 := by decide

end Strf.Locale

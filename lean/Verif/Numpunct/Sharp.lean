import Verif.Numpunct.Props
import Mathlib.Logic.Basic
import Mathlib.Tactic.ByContra
import Mathlib.Tactic.Conv
/-
C26: when two groupings mean the same, and when they compare equal.
-/
namespace Strf.Numpunct
open Spec

/-- C26: two groupings split every number of digits in the same way if and only if they have the same groups for ever. -/
theorem same_split_iff (gs gs' : List Nat) (rep rep' : Bool) (hv : Valid gs rep) (hv' : Valid gs' rep') :
    (∀ n, split gs rep n = split gs' rep' n) ↔ ∀ i, groupSize gs rep i = groupSize gs' rep' i := by
  constructor
  · intro h
    have step : ∀ i, (∀ n, ∃ fuel, n ≤ fuel ∧ splitFrom gs rep fuel i n = splitFrom gs' rep' fuel i n) →
        groupSize gs rep i = groupSize gs' rep' i ∧
        (∀ g, groupSize gs rep i = some g →
          ∀ n, ∃ fuel, n ≤ fuel ∧ splitFrom gs rep fuel (i + 1) n = splitFrom gs' rep' fuel (i + 1) n) := by
      intro i hi
      have heq : groupSize gs rep i = groupSize gs' rep' i := by
        cases e1 : groupSize gs rep i with
        | none =>
          cases e2 : groupSize gs' rep' i with
          | none => rfl
          | some g =>
            exfalso
            obtain ⟨f, hf, e⟩ := hi (g + 1)
            obtain ⟨f, rfl⟩ : ∃ k, f = k + 1 := ⟨f - 1, by omega⟩
            rw [splitFrom, splitFrom, e1, e2] at e
            dsimp only at e
            rw [if_neg (by omega)] at e
            injection e with e _
            omega
        | some g =>
          cases e2 : groupSize gs' rep' i with
          | none =>
            exfalso
            obtain ⟨f, hf, e⟩ := hi (g + 1)
            obtain ⟨f, rfl⟩ : ∃ k, f = k + 1 := ⟨f - 1, by omega⟩
            rw [splitFrom, splitFrom, e1, e2] at e
            dsimp only at e
            rw [if_neg (by omega)] at e
            injection e with e _
            omega
          | some g' =>
            obtain ⟨f, hf, e⟩ := hi (min g g' + 1)
            obtain ⟨f, rfl⟩ : ∃ k, f = k + 1 := ⟨f - 1, by omega⟩
            rw [splitFrom, splitFrom, e1, e2] at e
            dsimp only at e
            by_cases h1 : g < g'
            · rw [if_neg (by omega), if_pos (by omega)] at e
              injection e with e _
              omega
            · by_cases h2 : g' < g
              · rw [if_pos (by omega), if_neg (by omega)] at e
                injection e with e _
                omega
              · congr 1; omega
      refine ⟨heq, fun g hg n => ?_⟩
      by_cases h0 : n = 0
      · subst h0
        exact ⟨0, by omega, rfl⟩
      · obtain ⟨f, hf, e⟩ := hi (n + g)
        obtain ⟨f, rfl⟩ : ∃ k, f = k + 1 := ⟨f - 1, by omega⟩
        rw [splitFrom, splitFrom, ← heq, hg] at e
        dsimp only at e
        rw [if_neg (by omega), if_neg (by omega), Nat.add_sub_cancel] at e
        have hg0 := (hv.2.1 g (groupSize_mem gs rep i g hg)).1
        exact ⟨f, by omega, (List.cons.inj e).2⟩
    have hall : ∀ i, (∀ n, ∃ fuel, n ≤ fuel ∧ splitFrom gs rep fuel i n = splitFrom gs' rep' fuel i n) ∨
        (groupSize gs rep i = none ∧ groupSize gs' rep' i = none) := by
      intro i
      induction i with
      | zero => exact .inl fun n => ⟨n, Nat.le_refl n, h n⟩
      | succ i ih =>
        have hnone : ∀ (gs : List Nat) (rep : Bool), groupSize gs rep i = none → groupSize gs rep (i + 1) = none := by
          intro gs rep hn
          unfold groupSize at hn ⊢
          by_cases h1 : i < gs.length
          · rw [if_pos h1, List.getElem?_eq_getElem h1] at hn; cases hn
          · rw [if_neg h1] at hn
            rw [if_neg (by omega)]
            exact hn
        rcases ih with ih | ⟨i1, i2⟩
        · obtain ⟨he, hs⟩ := step i ih
          cases e1 : groupSize gs rep i with
          | none => exact .inr ⟨hnone _ _ e1, hnone _ _ (he ▸ e1)⟩
          | some g => exact .inl (hs g e1)
        · exact .inr ⟨hnone _ _ i1, hnone _ _ i2⟩
    intro i
    rcases hall i with hi | ⟨i1, i2⟩
    · exact (step i hi).1
    · rw [i1, i2]
  · intro h n
    have : ∀ fuel i m, splitFrom gs rep fuel i m = splitFrom gs' rep' fuel i m := by
      intro fuel
      induction fuel with
      | zero => intros; rfl
      | succ f ih =>
        intro i m
        rw [splitFrom, splitFrom, h i]
        cases groupSize gs' rep' i with
        | none => rfl
        | some g => dsimp only; rw [ih]
    exact this _ _ _

example : ∀ n, split [3, 2, 2] true n = split [3, 2] true n := by
  rw [same_split_iff _ _ _ _ (by decide) (by decide)]
  intro i
  match i with
  | 0 => rfl
  | 1 => rfl
  | 2 => rfl
  | i + 3 => rfl

theorem squeeze_last (gs : List Nat) (hne : gs ≠ []) :
    ∃ init g, squeeze gs = init ++ [g] ∧ ∀ init' , init ≠ init' ++ [g] := by
  unfold squeeze
  cases hr : gs.reverse with
  | nil => simp at hr; exact absurd hr hne
  | cons hi r =>
    refine ⟨_, hi, rfl, fun init' he => ?_⟩
    have e : r.dropWhile (· == hi) = hi :: init'.reverse := by
      have := congrArg List.reverse he
      simpa using this
    have := List.head?_dropWhile_not (p := (· == hi)) r
    rw [e] at this
    simp at this

/-- a list of groups without a superfluous one at the end -/
theorem reduced_unique (a b : List Nat) (x y : Nat) (ha : ∀ c, a ≠ c ++ [x]) (hb : ∀ c, b ≠ c ++ [y])
    (h : ∀ i, groupSize (a ++ [x]) true i = groupSize (b ++ [y]) true i) : a ++ [x] = b ++ [y] := by
  have hbig : ∀ (l : List Nat) (z i : Nat), l.length ≤ i → groupSize (l ++ [z]) true i = some z := by
    intro l z i hi
    unfold groupSize
    by_cases h1 : i < (l ++ [z]).length
    · rw [if_pos h1]
      have : i = l.length := by simp at h1; omega
      subst this
      simp
    · rw [if_neg h1]; simp
  have hsmall : ∀ (l : List Nat) (z i : Nat), i < l.length → groupSize (l ++ [z]) true i = l[i]? := by
    intro l z i hi
    unfold groupSize
    rw [if_pos (by simp; omega), List.getElem?_append_left hi]
  have hxy : x = y := by
    have := h (a.length + b.length)
    rw [hbig a x _ (by omega), hbig b y _ (by omega)] at this
    exact Option.some.inj this
  subst hxy
  have key : ∀ (a b : List Nat), (∀ c, b ≠ c ++ [x]) →
      (∀ i, groupSize (a ++ [x]) true i = groupSize (b ++ [x]) true i) → b.length ≤ a.length := by
    intro a b hb h
    by_contra hc
    have hi := h (b.length - 1)
    rw [hbig a x _ (by omega), hsmall b x _ (by omega)] at hi
    refine hb b.dropLast ?_
    have hne : b ≠ [] := by intro he; subst he; simp at hc
    have hl : b.getLast hne = x := by
      rw [List.getLast_eq_getElem]
      rw [List.getElem?_eq_getElem (by omega)] at hi
      exact (Option.some.inj hi).symm
    conv_lhs => rw [← List.dropLast_concat_getLast hne, hl]
  have hlen : a.length = b.length := Nat.le_antisymm (key b a ha fun i => (h i).symm) (key a b hb h)
  congr 1
  apply List.ext_getElem? 
  intro i
  by_cases hi : i < a.length
  · rw [← hsmall a x i hi, ← hsmall b x i (by omega)]; exact h i
  · rw [List.getElem?_eq_none (by omega), List.getElem?_eq_none (by omega)]

/-- C26: what `digits_grouping_creator::finish()` gives compares equal for two lists of groups if and only if they
split every number of digits in the same way. -/
theorem creator_canonical (gs gs' : List Nat) (hne : gs ≠ []) (hne' : gs' ≠ []) (h : Valid gs true) (h' : Valid gs' true) :
    ((gs.map Int.ofNat).foldl Creator.push Creator.init).finish =
      ((gs'.map Int.ofNat).foldl Creator.push Creator.init).finish ↔ ∀ n, split gs true n = split gs' true n := by
  rw [same_split_iff gs gs' true true h h']
  have hf : ∀ gs, gs ≠ [] → Valid gs true → ((gs.map Int.ofNat).foldl Creator.push Creator.init).finish =
      ctor2 (args (squeeze gs) true) := by
    intro gs hne h
    have e := pushAll_ok [] gs (by simp) h.2.1 (by simpa using h.1)
    rw [List.append_nil] at e
    have e' : (gs.map Int.ofNat).foldl Creator.push Creator.init = ⟨revEnc gs.reverse, false⟩ := e
    rw [e', finish_ok gs hne h.1 h.2.1, ctor2_args _ true (squeeze_valid gs hne h)]
  rw [hf gs hne h, hf gs' hne' h', ctor_injective _ _ _ _ (squeeze_valid gs hne h) (squeeze_valid gs' hne' h')]
  constructor
  · rintro ⟨e, _⟩ i
    rw [← squeeze_groupSize gs hne, ← squeeze_groupSize gs' hne', e]
  · intro hg
    obtain ⟨a, x, ea, ha⟩ := squeeze_last gs hne
    obtain ⟨b, y, eb, hb⟩ := squeeze_last gs' hne'
    refine ⟨?_, rfl⟩
    rw [ea, eb]
    refine reduced_unique a b x y ha hb fun i => ?_
    rw [← ea, ← eb, squeeze_groupSize gs hne, squeeze_groupSize gs' hne', hg i]

/-- C26, exactly: what `finish()` gives compares equal to the grouping constructed from the same groups if and only if
the last two groups differ. -/
theorem creator_equality_iff (gs : List Nat) (hne : gs ≠ []) (h : Valid gs true) :
    ((gs.map Int.ofNat).foldl Creator.push Creator.init).finish = ctor2 (args gs true) ↔
      ¬ ∃ init g, gs = init ++ [g, g] := by
  have hf : ((gs.map Int.ofNat).foldl Creator.push Creator.init).finish = ctor2 (args (squeeze gs) true) := by
    have e := pushAll_ok [] gs (by simp) h.2.1 (by simpa using h.1)
    rw [List.append_nil] at e
    have e' : (gs.map Int.ofNat).foldl Creator.push Creator.init = ⟨revEnc gs.reverse, false⟩ := e
    rw [e', finish_ok gs hne h.1 h.2.1, ctor2_args _ true (squeeze_valid gs hne h)]
  rw [hf, ctor_injective _ _ _ _ (squeeze_valid gs hne h) h]
  obtain ⟨a, x, ea, ha⟩ := squeeze_last gs hne
  constructor
  · rintro ⟨e, _⟩ ⟨init, g, e2⟩
    rw [ea, e2, show init ++ [g, g] = (init ++ [g]) ++ [g] by simp] at e
    obtain ⟨e3, e4⟩ := List.append_inj' e rfl
    cases e4
    exact ha init e3
  · intro hn
    refine ⟨?_, rfl⟩
    obtain ⟨b, y, eb⟩ : ∃ b y, gs = b ++ [y] := ⟨gs.dropLast, gs.getLast hne, (List.dropLast_concat_getLast hne).symm⟩
    rw [ea]
    refine (reduced_unique a b x y ha (fun c hc => hn ⟨c, y, by rw [eb, hc]; simp⟩) fun i => ?_).trans eb.symm
    rw [← ea, ← eb, squeeze_groupSize gs hne]

example : ((([4, 3, 2] : List Nat).map Int.ofNat).foldl Creator.push Creator.init).finish = ctor2 (args [4, 3, 2] true) := by
  rw [creator_equality_iff _ (by simp) (by decide)]
  rintro ⟨init, g, e⟩
  match init, e with
  | [], e => simp at e
  | [_], e => simp at e; omega
  | _ :: _ :: _, e => have := congrArg List.length e; simp at this

/-- C48, exactly: `no_grouping::decimal_point()` gives the character set if and only if it is the point. -/
theorem no_grouping_point_iff (f : NoGrouping) (c : Nat) : (f.setPoint c).getPoint = c ↔ c = 0x2E := by
  constructor
  · intro h; exact h.symm
  · intro h; subst h; rfl

end Strf.Numpunct

import Verif.Numpunct.Props
/-!
# C96: what a numpunct facet answers

`numpunct`, `no_grouping` and `default_numpunct` are used through the same member functions. `Answers` says, in terms of the groups of
digits of a number (Numpunct/Spec.lean), what they must return.
-/
namespace Strf.Numpunct
open Strf.Numpunct.Spec

/-! ### Model -/

/-- what a numpunct facet is asked, detail/facets/numpunct.hpp 455–458, 469–484, 495–498: `grouping`, `distribute`,
`any_group_separation`, `thousands_sep_count`, `thousands_sep`, `decimal_point` -/
structure Asked where
  grouping : Nat
  distribute : Nat → Option Dist
  anySeparation : Nat → Bool
  sepCount : Nat → Nat
  sep : Nat
  point : Nat

/-- detail/facets/numpunct.hpp 455–458, 469–484, 495–498: `numpunct` asks its `digits_grouping` -/
def Facet.asked (f : Facet) : Asked :=
  ⟨f.getGrouping, Numpunct.distribute f.grouping, Numpunct.anySeparator f.grouping, Numpunct.separatorsCount f.grouping, f.getSep, f.getPoint⟩

/-- detail/facets/numpunct.hpp 534–537, 580–583: all digits are one group -/
def oneGroup (n : Nat) : Option Dist := some ⟨0, 0, n⟩

/-- detail/facets/numpunct.hpp 516–560 `default_numpunct`: it has no data members -/
def defaultAsked : Asked := ⟨emptyWord, oneGroup, fun _ => false, fun _ => 0, 0x2C, 0x2E⟩

/-- detail/facets/numpunct.hpp 554–557 the conversion of `default_numpunct` to `numpunct` -/
def defaultToNumpunct : Facet := Facet.default

/-- detail/facets/numpunct.hpp 576–599 `no_grouping` -/
def NoGrouping.asked (f : NoGrouping) : Asked :=
  ⟨f.getGrouping, oneGroup, fun _ => false, fun _ => 0, f.getSep, f.getPoint⟩

/-- detail/facets/numpunct.hpp 568–575 `no_grouping::operator==`. The data member has no initializer (616): `none` if either has not
been set, which is undefined behaviour. -/
def NoGrouping.eq (f g : Option NoGrouping) : Option Bool :=
  match f, g with
  | some f, some g => some (f.decimalPoint == g.decimalPoint)
  | _, _ => none

/-- detail/facets/numpunct.hpp 600–603 the conversion of `no_grouping` to `numpunct` -/
def NoGrouping.toNumpunct (_ : NoGrouping) : Facet := Facet.default

/-! ### Specification -/

/-- a facet that groups by `gs` (repeating the last if `rep`) answers, for every number of digits, how they are grouped: whether there is
a separator, how many, and the groups; and it gives its two characters -/
structure Answers (q : Asked) (gs : List Nat) (rep : Bool) (point sep : Nat) : Prop where
  any : ∀ n, q.anySeparation n = Bool.true ↔ 2 ≤ (split gs rep n).length
  count : ∀ n, q.sepCount n = (split gs rep n).length - 1
  groups : ∀ n, 1 ≤ n → ∃ d, q.distribute n = some d ∧ d.read = (split gs rep n).reverse
  grouping : q.grouping = ctor2 (args gs rep)
  point : q.point = point
  sep : q.sep = sep

/-! ### Theorems -/

/-- C96: `numpunct` -/
theorem numpunct_answers (gs : List Nat) (rep : Bool) (h : Valid gs rep) (f : Facet) (hf : f.grouping = ctor2 (args gs rep)) :
    Answers f.asked gs rep f.decimalPoint f.thousandsSep := by
  refine ⟨fun n => ?_, fun n => ?_, fun n hn => ?_, hf, rfl, rfl⟩
  · show Numpunct.anySeparator f.grouping n = Bool.true ↔ _
    rw [hf, any_separator_exact gs rep h, separators_count_exact gs rep h, decide_eq_true_iff]
    omega
  · show Numpunct.separatorsCount f.grouping n = _
    rw [hf, separators_count_exact gs rep h]
  · obtain ⟨d, h1, h2, _⟩ := distribute_exact gs rep h n hn
    exact ⟨d, by show Numpunct.distribute f.grouping n = _; rw [hf, h1], h2⟩

theorem one_group (n : Nat) : split [] Bool.false n = [n] := by
  unfold split
  exact splitFrom_nil _ _ _ _

/-- C96: `default_numpunct` answers as the numpunct it is converted to, which has no groups, a full stop and a comma. -/
theorem default_answers : Answers defaultAsked [] Bool.false 0x2E 0x2C ∧ Answers defaultToNumpunct.asked [] Bool.false 0x2E 0x2C := by
  refine ⟨⟨fun n => ?_, fun n => ?_, fun n hn => ⟨_, rfl, ?_⟩, rfl, rfl, rfl⟩, numpunct_answers [] Bool.false (by decide) _ rfl⟩
  · rw [one_group]; simp [defaultAsked]
  · rw [one_group]; rfl
  · rw [one_group]; unfold Dist.read lowList; simp

/-- C96, in part: `no_grouping` answers as a numpunct without groups, with a full stop and a comma. Missing: the decimal point is the one
that was set, which is false (`no_grouping_point_wrong`). -/
theorem no_grouping_answers_partial (f : NoGrouping) :
    Answers f.asked [] Bool.false 0x2E 0x2C ∧ Answers f.toNumpunct.asked [] Bool.false 0x2E 0x2C :=
  ⟨⟨default_answers.1.any, default_answers.1.count, default_answers.1.groups, rfl, rfl, rfl⟩, default_answers.2⟩

/-- C96: two `numpunct` are equal exactly if they have been given the same groups and characters. -/
theorem numpunct_equal (gs gs' : List Nat) (rep rep' : Bool) (h : Valid gs rep) (h' : Valid gs' rep') (f g : Facet)
    (hf : f.grouping = ctor2 (args gs rep)) (hg : g.grouping = ctor2 (args gs' rep')) :
    f.eq g = Bool.true ↔ (gs = gs' ∧ rep = rep') ∧ f.decimalPoint = g.decimalPoint ∧ f.thousandsSep = g.thousandsSep := by
  unfold Facet.eq
  simp only [Bool.and_eq_true, beq_iff_eq, hf, hg]
  rw [ctor_injective gs gs' rep rep' h h', and_assoc]

/-- C96: two equal `numpunct` answer alike. -/
theorem equal_answers (f g : Facet) (h : f.eq g = Bool.true) : f = g := by
  unfold Facet.eq at h
  simp only [Bool.and_eq_true, beq_iff_eq] at h
  cases f; cases g; simp_all

/-- C96 is false of `no_grouping`: two that answer everything alike are not equal … -/
theorem no_grouping_equal_wrong : ∃ f g : NoGrouping, f.asked = g.asked ∧ NoGrouping.eq (some f) (some g) = some Bool.false :=
  ⟨⟨0x2E⟩, ⟨0x2C⟩, rfl, rfl⟩

/-- … and one that has been made by its default constructor cannot be compared. -/
theorem no_grouping_uninit_wrong (g : Option NoGrouping) : NoGrouping.eq none g = none := rfl

/-- a case: groups of three, last one repeated -/
example : Valid [3] Bool.true ∧ (Facet.ofGroups [3]).grouping = ctor2 (args [3] Bool.true) ∧
    (Facet.ofGroups [3]).asked.sepCount 7 = 2 ∧ (Facet.ofGroups [3]).asked.anySeparation 3 = Bool.false ∧
    ((Facet.ofGroups [3]).asked.distribute 7).map Dist.read = some [1, 3, 3] := by decide +kernel

end Strf.Numpunct

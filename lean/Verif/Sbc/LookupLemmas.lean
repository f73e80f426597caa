import Verif.Sbc.Base
import Mathlib.Tactic.SplitIfs
/-! # The binary search finds what a linear search finds -/
namespace Strf.Sbc

/-- Strictly increasing keys. -/
def Sorted (m : List (Nat × Nat)) : Prop := m.Pairwise fun a b => a.1 < b.1

instance (m : List (Nat × Nat)) : Decidable (Sorted m) := by unfold Sorted; infer_instance

abbrev keyAt (m : List (Nat × Nat)) (i : Nat) : Nat := (m.getD i (0, 0)).1

theorem Sorted.lt {m : List (Nat × Nat)} (h : Sorted m) {i j : Nat} (hij : i < j) (hj : j < m.length) :
    keyAt m i < keyAt m j := by
  have := List.pairwise_iff_getElem.1 h i j (by omega) hj hij
  simpa [keyAt, List.getD_eq_getElem?_getD, List.getElem?_eq_getElem (show i < m.length by omega),
    List.getElem?_eq_getElem hj] using this

theorem lowerBound_spec {m : List (Nat × Nat)} (h : Sorted m) (key : Nat) (n : Nat) :
    ∀ first, first + n ≤ m.length → (∀ i, i < first → keyAt m i < key) →
      (∀ i, first + n ≤ i → i < m.length → key ≤ keyAt m i) →
      lowerBound m key first n ≤ m.length ∧ (∀ i, i < lowerBound m key first n → keyAt m i < key) ∧
      (∀ i, lowerBound m key first n ≤ i → i < m.length → key ≤ keyAt m i) := by
  induction n using Nat.strongRecOn with
  | _ n ih =>
    intro first h1 h2 h3
    unfold lowerBound
    dsimp only
    split_ifs with c1 c2
    · refine ih (n - (n / 2 + 1)) (by omega) (first + n / 2 + 1) (by omega) ?_ ?_
      · intro i hi
        rcases Nat.lt_or_ge i (first + n / 2) with g | g
        · exact Nat.lt_trans (h.lt g (by omega)) c2
        · have : i = first + n / 2 := by omega
          subst this; exact c2
      · intro i hi hl; exact h3 i (by omega) hl
    · refine ih (n / 2) (by omega) first (by omega) h2 ?_
      intro i hi hl
      rcases Nat.lt_or_ge (first + n / 2) i with g | g
      · exact Nat.le_trans (Nat.le_of_not_lt c2) (Nat.le_of_lt (h.lt g hl))
      · have : i = first + n / 2 := by omega
        subst this; exact Nat.le_of_not_lt c2
    · exact ⟨by omega, h2, fun i hi => h3 i (by omega)⟩

theorem pick_mem {m : List (Nat × Nat)} {ch d : Nat} :
    (∃ v, (ch, v) ∈ m ∧ pick m ch d = v) ∨ ((∀ v, (ch, v) ∉ m) ∧ pick m ch d = d) := by
  induction m with
  | nil => exact .inr ⟨by simp, rfl⟩
  | cons a m ih =>
    unfold pick
    split_ifs with c
    · exact .inl ⟨a.2, by rw [c]; simp, rfl⟩
    · rcases ih with ⟨v, hv, e⟩ | ⟨hv, e⟩
      · exact .inl ⟨v, by simp [hv], e⟩
      · refine .inr ⟨fun v hm => ?_, e⟩
        rcases List.mem_cons.1 hm with g | g
        · exact c (by rw [← g])
        · exact hv v g

theorem Sorted.unique {m : List (Nat × Nat)} (h : Sorted m) {k v w : Nat} (hv : (k, v) ∈ m) (hw : (k, w) ∈ m) :
    v = w := by
  induction m with
  | nil => cases hv
  | cons a m ih =>
    have h1 := List.pairwise_cons.1 h
    rcases List.mem_cons.1 hv with g | g <;> rcases List.mem_cons.1 hw with g' | g'
    · rw [← g] at g'; injection g' with _ e; exact e.symm
    · have := h1.1 _ g'; rw [← g] at this; simp at this
    · have := h1.1 _ g; rw [← g'] at this; simp at this
    · exact ih h1.2 g g'

/-- The binary search over a sorted table is the switch with its entries as cases. -/
theorem lookup_eq {m : List (Nat × Nat)} (h : Sorted m) (ch : Nat) : lookup m ch = pick m ch 0x100 := by
  obtain ⟨h1, h2, h3⟩ := lowerBound_spec h ch m.length 0 (by omega) (by simp) (by intro i a b; omega)
  unfold lookup
  dsimp only
  generalize lowerBound m ch 0 m.length = r at h1 h2 h3
  split_ifs with c
  · obtain ⟨c1, c2⟩ := c
    have hr : r < m.length := by omega
    have hm : m.getD r (0, 0) ∈ m := by
      rw [List.getD_eq_getElem?_getD, List.getElem?_eq_getElem hr]; exact List.getElem_mem hr
    rcases pick_mem (m := m) (ch := ch) (d := 0x100) with ⟨v, hv, e⟩ | ⟨hv, _⟩
    · rw [e]
      exact h.unique (k := ch) (by rw [← c2]; exact hm) hv
    · exact absurd (by rw [← c2]; exact hm) (hv (m.getD r (0, 0)).2)
  · rcases pick_mem (m := m) (ch := ch) (d := 0x100) with ⟨v, hv, e⟩ | ⟨hv, e⟩
    · exfalso
      obtain ⟨i, hi, e2⟩ := List.getElem_of_mem hv
      have hk : keyAt m i = ch := by
        simp [keyAt, List.getD_eq_getElem?_getD, List.getElem?_eq_getElem hi, e2]
      have g1 : r ≤ i := by
        rcases Nat.lt_or_ge i r with g | g
        · have := h2 i g; omega
        · exact g
      have hr : r < m.length := by omega
      rcases Nat.lt_or_ge r i with g | g
      · have a := h.lt g hi
        have b := h3 r (Nat.le_refl _) hr
        omega
      · have : i = r := by omega
        subst this
        exact c ⟨by omega, hk⟩
    · exact e.symm

end Strf.Sbc

import Verif.Dest.Lawful
import Verif.Dest.Strings
/- The string destinations keep the destination contract. -/
namespace Strf.Dest
variable {α : Type}

namespace Appender

/-- what an appender has been given, when no append failed -/
def Rep (start : List α) (s : Appender α) (t : List α) : Prop :=
  s.buf.length = 64 ∧ s.ptr ≤ 64 ∧ s.good = true ∧ s.str ++ s.buf.take s.ptr = start ++ t

theorem lawfulAll (start : List α) : LawfulAll (dest (α := α)) (Rep start) where
  poke := by
    rintro s t xs ⟨h1, h2, h3, h4⟩ hx
    simp only [dest] at hx ⊢
    obtain ⟨b, e, hl, ht, _⟩ := storeAt_some (buf := s.buf) (i := s.ptr) (xs := xs) (by omega)
    refine ⟨{ s with buf := b, ptr := s.ptr + xs.length }, by rw [poke, e]; rfl, ⟨by simp [hl, h1], by simp; omega, h3, ?_⟩, ?_, rfl⟩
    · simp only; rw [ht, ← List.append_assoc, h4, List.append_assoc]
    · simp only [hl]; omega
  recycle := by
    rintro s t ⟨h1, h2, h3, h4⟩
    simp only [dest, recycleE, h3]
    refine ⟨⟨h1, by simp, rfl, ?_⟩, ?_, fun _ => trivial⟩
    · simp [h4]
    · simp [h1]
  doWrite := by
    rintro s t xs ⟨h1, h2, h3, h4⟩ _
    refine ⟨_, rfl, ?_, ?_⟩
    · simp only [doWriteE, h3]
      refine ⟨h1, by simp, rfl, ?_⟩
      simp only [if_true, List.take_zero, List.append_nil]
      rw [h4, List.append_assoc]
    · intro _; exact h3
  bad := by
    rintro s t xs ⟨_, _, h3, _⟩ hg
    simp only [dest] at hg; simp [h3] at hg

theorem lawful (start : List α) : Lawful (dest (α := α)) (Rep start) := (lawfulAll start).lawful

end Appender

namespace Maker

/-- what a string maker has been given, when no allocation failed -/
def Rep (s : Maker α) (t : List α) : Prop :=
  s.buf.length = 64 ∧ s.ptr ≤ 64 ∧ s.good = true ∧ (s.inited = s.str.isSome) ∧
    s.str.getD [] ++ s.buf.take s.ptr = t

theorem lawfulAll : LawfulAll (dest (α := α)) Rep where
  poke := by
    rintro s t xs ⟨h1, h2, h3, h4, h5⟩ hx
    simp only [dest] at hx ⊢
    obtain ⟨b, e, hl, ht, _⟩ := storeAt_some (buf := s.buf) (i := s.ptr) (xs := xs) (by omega)
    refine ⟨{ s with buf := b, ptr := s.ptr + xs.length }, by rw [poke, e]; rfl, ⟨by simp [hl, h1], by simp; omega, h3, h4, ?_⟩, ?_, rfl⟩
    · simp only; rw [ht, ← List.append_assoc, h5]
    · simp only [hl]; omega
  recycle := by
    rintro s t ⟨h1, h2, h3, h4, h5⟩
    simp only [dest, recycleE, h3, if_true]
    cases hs : s.str with
    | none =>
      rw [hs] at h4 h5
      simp only [Option.isSome_none] at h4
      simp only [h4]
      refine ⟨⟨h1, by simp, rfl, by simp, ?_⟩, ?_, fun _ => trivial⟩
      · simpa using h5
      · simp [h1]
    | some str =>
      rw [hs] at h4 h5
      simp only [Option.isSome_some] at h4
      simp only [h4]
      refine ⟨⟨h1, by simp, rfl, by simp [h4, hs], ?_⟩, ?_, fun _ => trivial⟩
      · simpa [hs] using h5
      · simp [h1]
  doWrite := by
    rintro s t xs ⟨h1, h2, h3, h4, h5⟩ _
    refine ⟨_, rfl, ?_, fun _ => h3⟩
    simp only [doWriteE, h3, if_true]
    cases hs : s.str with
    | none =>
      rw [hs] at h4 h5
      simp only [Option.isSome_none] at h4
      simp only [h4]
      refine ⟨h1, by simp, rfl, by simp, ?_⟩
      simp only [Option.getD_none, List.nil_append] at h5
      simp [h5]
    | some str =>
      rw [hs] at h4 h5
      simp only [Option.isSome_some] at h4
      simp only [h4]
      refine ⟨h1, by simp, rfl, by simp [h4, hs], ?_⟩
      simp only [Option.getD_some] at h5
      simp [hs, ← h5]
  bad := by
    rintro s t xs ⟨_, _, h3, _⟩ hg
    simp only [dest] at hg; simp [h3] at hg

theorem lawful : Lawful (dest (α := α)) Rep := lawfulAll.lawful

end Maker

namespace Sized

/-- what a sized string maker has been given -/
def Rep (s : Sized α) (t : List α) : Prop :=
  s.ptr ≤ s.end_ ∧ s.end_ ≤ s.str.length ∧ s.good = true ∧ s.str.take s.ptr = t

theorem rep_recycle (zero : α) {s : Sized α} {t : List α} (h : Rep s t) :
    Rep ((core zero).recycle s) t ∧ 64 ≤ (core zero).space ((core zero).recycle s) ∧
      ((core zero).good ((core zero).recycle s) = true → (core zero).good s = true) := by
  obtain ⟨h1, h2, h3, h4⟩ := h
  simp only [core, recycle]
  refine ⟨⟨by simp, by simp; omega, h3, ?_⟩, by omega, fun _ => h3⟩
  show List.take s.ptr (s.str ++ _) = t
  rw [List.take_append_of_le_length (by omega)]; exact h4

theorem lawfulCore (zero : α) : LawfulCore (core zero) Rep where
  poke := by
    rintro s t xs ⟨h1, h2, h3, h4⟩ hx
    simp only [core] at hx ⊢
    obtain ⟨b, e, hl, ht, _⟩ := storeAt_some (buf := s.str) (i := s.ptr) (xs := xs) (by omega)
    refine ⟨{ s with str := b, ptr := s.ptr + xs.length }, by rw [poke, if_pos (by omega), e]; rfl, ⟨by simp; omega, by simp [hl]; omega, h3, ?_⟩, ?_, rfl⟩
    · simp only; rw [ht, h4]
    · simp only; omega
  recycle _ _ h _ := rep_recycle zero h
  bad := by
    rintro s t xs ⟨_, _, h3, _⟩ hg
    simp only [core] at hg; simp [h3] at hg

theorem lawfulAll (zero : α) : LawfulAll (dest zero) Rep where
  poke := (lawfulCore zero).poke
  recycle _ _ h := rep_recycle zero h
  doWrite := by
    intro s t xs h _
    exact (lawfulCore zero).baseDoWrite (xs.length + 1) s t xs h (Or.inl (by omega)) (by omega)
  bad := (lawfulCore zero).bad

theorem lawful (zero : α) : Lawful (dest zero) Rep := (lawfulAll zero).lawful

end Sized
end Strf.Dest

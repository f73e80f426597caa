import Verif.Dest.Props
/-!
What `finish()` returns, or leaves in the target, if the destination has been given the text `t`.
-/
namespace Strf.Dest
variable {α : Type}

theorem Maker.rep_init {junk : List α} (hj : junk.length = 64) : Maker.Rep (Maker.init junk) [] :=
  ⟨hj, by simp [Maker.init], rfl, rfl, rfl⟩

theorem Maker.finish_of_rep {s : Maker α} {t : List α} (r : Maker.Rep s t) : (Maker.finishE true s).2 = some t := by
  obtain ⟨_, _, hg, hi, ht⟩ := r
  simp only [Maker.finishE, hg, if_true]
  cases hs : s.str with
  | none => rw [hs] at hi ht; simp at hi; simp [hi]; simpa using ht
  | some x => rw [hs] at hi ht; simp at hi; simp [hi]; simpa using ht

theorem Sized.rep_init (zero : α) (count : Nat) : Sized.Rep (Sized.init zero count) [] :=
  ⟨by simp [Sized.init], by simp [Sized.init], rfl, by simp [Sized.init]⟩

theorem Sized.finish_of_rep {s : Sized α} {t : List α} (r : Sized.Rep s t) : Sized.finish s = t := r.2.2.2

theorem Appender.rep_init (start : List α) {junk : List α} (hj : junk.length = 64) :
    Appender.Rep start (Appender.init start junk) [] := ⟨hj, by simp [Appender.init], rfl, by simp [Appender.init]⟩

theorem Appender.finish_of_rep {start : List α} {s : Appender α} {t : List α} (r : Appender.Rep start s t) :
    (Appender.destroyE true (Appender.finishE true s).1).str = start ++ t := by
  obtain ⟨_, _, hg, ht⟩ := r
  simp [Appender.finishE, Appender.destroyE, hg, ht]

theorem Writer.rep_init {junk : List α} (hj : 64 ≤ junk.length) : Writer.Rep (Writer.init junk) [] :=
  ⟨⟨hj, by simp [Writer.init], rfl⟩, by simp [Writer.init], by simp [Writer.init]⟩

theorem Writer.finish_of_rep (acc : World α) {s : Writer α} {t : List α} (r : Writer.Rep s t) :
    (Writer.finish acc s).1.file <+: t ∧ (Writer.finish acc s).2.1 = (Writer.finish acc s).1.file.length ∧
      ((Writer.finish acc s).2.2 = true ↔ (Writer.finish acc s).1.file = t) ∧
      (Writer.destroy acc (Writer.finish acc s).1).file = (Writer.finish acc s).1.file := by
  obtain ⟨⟨k1, k2, k3⟩, h2, h3⟩ := r
  obtain ⟨buf, ptr, good, count, file, calls⟩ := s
  simp only at k1 k2 k3 h2 h3
  cases good with
  | false =>
    obtain ⟨p, q⟩ := h3 rfl
    refine ⟨p, k3, ?_, rfl⟩
    simp only [Writer.finish]
    constructor
    · intro h; cases h
    · intro h; simp only [Bool.false_eq_true, if_false] at h; rw [h] at q; omega
  | true =>
    have ht := h2 rfl
    have hl : (buf.take ptr).length = ptr := by simp; omega
    obtain ⟨n, hn⟩ : ∃ n, n = min (acc calls file (buf.take ptr)) (buf.take ptr).length := ⟨_, rfl⟩
    have ef : Writer.finish acc ⟨buf, ptr, true, count, file, calls⟩ =
      (⟨buf, ptr, false, count + n, file ++ (buf.take ptr).take n, calls + 1⟩, count + n, ptr == n) := by
      rw [hn]; rfl
    rw [ef]
    have hp : file ++ (buf.take ptr).take n <+: t := by
      rw [← ht]; exact (List.prefix_append_right_inj file).mpr (List.take_prefix _ _)
    refine ⟨hp, by simp; omega, ?_, rfl⟩
    simp only [beq_iff_eq]
    constructor
    · intro h
      rw [List.take_of_length_le (l := buf.take ptr) (by omega), ht]
    · intro h
      have h2 := congrArg List.length h
      rw [← ht] at h2
      simp at h2; omega

theorem Writer.repSb_init {junk : List α} (hj : 64 ≤ junk.length) : Writer.RepSb (Writer.init junk) [] :=
  ⟨⟨hj, by simp [Writer.init], rfl⟩, by simp [Writer.init], by simp [Writer.init]⟩

theorem Writer.finishSb_of_rep (acc : World α) {s : Writer α} {t : List α} (r : Writer.RepSb s t) :
    (Writer.finishSb acc s).2.1 = (Writer.finishSb acc s).1.file.length ∧
      ((Writer.finishSb acc s).2.2 = true → (Writer.finishSb acc s).1.file = t) ∧
      ((Writer.finishSb acc s).2.2 = false → (Writer.finishSb acc s).1.file.length < t.length) := by
  obtain ⟨⟨k1, k2, k3⟩, h2, h3⟩ := r
  obtain ⟨buf, ptr, good, count, file, calls⟩ := s
  simp only at k1 k2 k3 h2 h3
  cases good with
  | false => exact ⟨k3, (fun h => by cases h), fun _ => h3 rfl⟩
  | true =>
    have ht := h2 rfl
    have hl : (buf.take ptr).length = ptr := by simp; omega
    obtain ⟨n, hn⟩ : ∃ n, n = min (acc calls file (buf.take ptr)) (buf.take ptr).length := ⟨_, rfl⟩
    have ef : Writer.finishSb acc ⟨buf, ptr, true, count, file, calls⟩ =
      (⟨buf, 0, false, count + n, file ++ (buf.take ptr).take n, calls + 1⟩, count + n, n == ptr) := by
      rw [hn]; rfl
    rw [ef]
    refine ⟨by simp; omega, fun h => ?_, fun h => ?_⟩
    · simp at h
      simp only
      rw [List.take_of_length_le (l := buf.take ptr) (by omega), ht]
    · simp at h
      rw [← ht]; simp; omega

end Strf.Dest

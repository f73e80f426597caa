import Verif.Dest.FilesLemmas
/- The streambuf writer. -/
namespace Strf.Dest
variable {α : Type}
namespace Writer

/-- streambuf writer: everything is in the stream or the buffer, or something is missing from the stream -/
def RepSb (s : Writer α) (t : List α) : Prop :=
  Wf s ∧ (s.good = true → s.file ++ s.buf.take s.ptr = t) ∧ (s.good = false → s.file.length < t.length)

theorem doWriteSb_good (acc : World α) (buf file xs : List α) (ptr count calls : Nat) :
    ∃ n m, n = min (acc calls file (buf.take ptr)) (buf.take ptr).length ∧
      m = min (acc (calls + 1) (file ++ (buf.take ptr).take n) xs) xs.length ∧
      doWriteSb acc ⟨buf, ptr, true, count, file, calls⟩ xs =
        ⟨buf, 0, n + m == ptr + xs.length, count + (n + m), file ++ (buf.take ptr).take n ++ xs.take m, calls + 2⟩ :=
  ⟨_, _, rfl, rfl, rfl⟩

theorem recycle_good (acc : World α) (buf file : List α) (ptr count calls : Nat) :
    ∃ n, n = min (acc calls file (buf.take ptr)) (buf.take ptr).length ∧
      recycle acc ⟨buf, ptr, true, count, file, calls⟩ =
        ⟨buf, 0, n == ptr, count + n, file ++ (buf.take ptr).take n, calls + 1⟩ :=
  ⟨_, rfl, rfl⟩

theorem lawfulSbAll (acc : World α) : LawfulAll (streambuf acc) RepSb where
  poke := by
    rintro s t xs ⟨h1, h2, h3⟩ hx
    obtain ⟨b, e, hl, ht, hw⟩ := poke_wf h1 hx
    refine ⟨_, e, ⟨hw, fun g => ?_, fun g => ?_⟩, by simp only [hl]; omega, rfl⟩
    · simp only; rw [ht, ← List.append_assoc, h2 g]
    · have := h3 g
      simp only [List.length_append]; omega
  recycle := by
    rintro s t ⟨⟨k1, k2, k3⟩, h2, h3⟩
    obtain ⟨buf, ptr, good, count, file, calls⟩ := s
    simp only at k1 k2 k3 h2 h3
    cases good with
    | false =>
      exact ⟨⟨⟨k1, Nat.zero_le _, k3⟩, (fun g => by cases g), h3⟩, (by simpa [recycle] using k1), fun g => g⟩
    | true =>
      obtain ⟨n, hn, e⟩ := recycle_good acc buf file ptr count calls
      have hl : (buf.take ptr).length = ptr := by simp; omega
      have e' : (streambuf acc).recycle ⟨buf, ptr, true, count, file, calls⟩ = _ := e
      rw [e']
      have ht := h2 rfl
      refine ⟨⟨⟨k1, Nat.zero_le _, ?_⟩, fun g => ?_, fun g => ?_⟩, by simpa using k1, fun _ => rfl⟩
      · simp; omega
      · simp only [beq_iff_eq] at g
        rw [List.take_of_length_le (l := buf.take ptr) (by omega)]
        simp [ht]
      · simp only [beq_eq_false_iff_ne, ne_eq] at g
        rw [← ht]; simp; omega
  doWrite := by
    rintro s t xs ⟨⟨k1, k2, k3⟩, h2, h3⟩ _
    obtain ⟨buf, ptr, good, count, file, calls⟩ := s
    simp only at k1 k2 k3 h2 h3
    refine ⟨_, rfl, ?_⟩
    cases good with
    | false =>
      exact ⟨⟨⟨k1, Nat.zero_le _, k3⟩, (fun g => by cases g),
        fun _ => by have := h3 rfl; simp [doWriteSb]; omega⟩, fun g => g⟩
    | true =>
      obtain ⟨n, m, hn, hm, e⟩ := doWriteSb_good acc buf file xs ptr count calls
      have hl : (buf.take ptr).length = ptr := by simp; omega
      have ht := h2 rfl
      rw [e]
      refine ⟨⟨⟨k1, Nat.zero_le _, ?_⟩, fun g => ?_, fun g => ?_⟩, fun _ => rfl⟩
      · simp; omega
      · simp only [beq_iff_eq] at g
        rw [List.take_of_length_le (l := buf.take ptr) (by omega), List.take_of_length_le (l := xs) (by omega)]
        simp [← ht]
      · simp only [beq_eq_false_iff_ne, ne_eq] at g
        rw [← ht]; simp; omega
  bad := by
    rintro s t xs ⟨h1, h2, h3⟩ hg
    have hg' : s.good = false := hg
    have := h3 hg'
    exact ⟨h1, by simp [hg'], fun _ => by simp; omega⟩

/-- a world that accepts `K` characters in all and then nothing -/
def CapWorld (acc : World α) (K : Nat) : Prop :=
  ∀ i f xs, min (acc i f xs) xs.length = min (K - f.length) xs.length

/-- streambuf writer in front of a world of capacity `K` -/
def RepCap (K : Nat) (s : Writer α) (t : List α) : Prop :=
  Wf s ∧ s.file.length ≤ K ∧ (s.good = true → s.file ++ s.buf.take s.ptr = t) ∧
    (s.good = false → s.file = t.take K ∧ K < t.length)

theorem lawfulCapAll (acc : World α) (K : Nat) (hw : CapWorld acc K) : LawfulAll (streambuf acc) (RepCap K) where
  poke := by
    rintro s t xs ⟨h1, h0, h2, h3⟩ hx
    obtain ⟨b, e, hl, ht, hw⟩ := poke_wf h1 hx
    refine ⟨_, e, ⟨hw, h0, fun g => ?_, fun g => ?_⟩, by simp only [hl]; omega, rfl⟩
    · simp only; rw [ht, ← List.append_assoc, h2 g]
    · obtain ⟨p, q⟩ := h3 g
      refine ⟨?_, by simp; omega⟩
      rw [List.take_append_of_le_length (by omega)]; exact p
  recycle := by
    rintro s t ⟨⟨k1, k2, k3⟩, h0, h2, h3⟩
    obtain ⟨buf, ptr, good, count, file, calls⟩ := s
    simp only at k1 k2 k3 h0 h2 h3
    cases good with
    | false =>
      exact ⟨⟨⟨k1, Nat.zero_le _, k3⟩, h0, (fun g => by cases g), h3⟩, (by simpa [recycle] using k1), fun g => g⟩
    | true =>
      obtain ⟨n, hn, e⟩ := recycle_good acc buf file ptr count calls
      have hl : (buf.take ptr).length = ptr := by simp; omega
      rw [hw] at hn
      have e' : (streambuf acc).recycle ⟨buf, ptr, true, count, file, calls⟩ = _ := e
      rw [e']
      have ht := h2 rfl
      refine ⟨⟨⟨k1, Nat.zero_le _, ?_⟩, by simp; omega, fun g => ?_, fun g => ?_⟩, by simpa using k1, fun _ => rfl⟩
      · simp; omega
      · simp only [beq_iff_eq] at g
        rw [List.take_of_length_le (l := buf.take ptr) (by omega)]
        simp [ht]
      · simp only [beq_eq_false_iff_ne, ne_eq] at g
        have hlt : n = K - file.length := by omega
        subst hlt
        rw [← ht]
        refine ⟨?_, by simp; omega⟩
        rw [List.take_append, List.take_of_length_le (l := file) (by omega)]
  doWrite := by
    rintro s t xs ⟨⟨k1, k2, k3⟩, h0, h2, h3⟩ _
    obtain ⟨buf, ptr, good, count, file, calls⟩ := s
    simp only at k1 k2 k3 h0 h2 h3
    refine ⟨_, rfl, ?_⟩
    cases good with
    | false =>
      obtain ⟨p, q⟩ := h3 rfl
      exact ⟨⟨⟨k1, Nat.zero_le _, k3⟩, h0, (fun g => by cases g),
        fun _ => ⟨by rw [List.take_append_of_le_length (by omega)]; exact p, by simp; omega⟩⟩, fun g => g⟩
    | true =>
      obtain ⟨n, m, hn, hm, e⟩ := doWriteSb_good acc buf file xs ptr count calls
      rw [hw] at hn hm
      have hl : (buf.take ptr).length = ptr := by simp; omega
      have ht := h2 rfl
      have hnl : (file ++ (buf.take ptr).take n).length = file.length + n := by simp; omega
      rw [hnl] at hm
      rw [e]
      refine ⟨⟨⟨k1, Nat.zero_le _, ?_⟩, by simp; omega, fun g => ?_, fun g => ?_⟩, fun _ => rfl⟩
      · simp; omega
      · simp only [beq_iff_eq] at g
        rw [List.take_of_length_le (l := buf.take ptr) (by omega), List.take_of_length_le (l := xs) (by omega)]
        simp [← ht]
      · simp only [beq_eq_false_iff_ne, ne_eq] at g
        refine ⟨?_, by rw [← ht]; simp; omega⟩
        show file ++ (buf.take ptr).take n ++ xs.take m = _
        rw [← ht, List.append_assoc file, List.append_assoc file, List.take_append,
          List.take_of_length_le (l := file) (by omega), List.take_append, hl]
        congr 1
        by_cases hc : n = ptr
        · rw [List.take_of_length_le (l := buf.take ptr) (by omega),
            List.take_of_length_le (l := buf.take ptr) (by omega)]
          have : m = min (K - file.length - ptr) xs.length := by omega
          rw [this]; simp [List.take_eq_take_iff]
        · have e1 : K - file.length - ptr = 0 := by omega
          have e2 : m = 0 := by omega
          rw [e1, e2, show n = K - file.length by omega]
  bad := by
    rintro s t xs ⟨h1, h0, h2, h3⟩ hg
    have hg' : s.good = false := hg
    obtain ⟨p, q⟩ := h3 hg'
    exact ⟨h1, h0, by simp [hg'], fun _ => ⟨by rw [List.take_append_of_le_length (by omega)]; exact p, by simp; omega⟩⟩

theorem lawfulSb (acc : World α) : Lawful (streambuf acc) RepSb := (lawfulSbAll acc).lawful

theorem lawfulCap (acc : World α) (K : Nat) (hw : CapWorld acc K) : Lawful (streambuf acc) (RepCap K) :=
  (lawfulCapAll acc K hw).lawful

end Writer
end Strf.Dest

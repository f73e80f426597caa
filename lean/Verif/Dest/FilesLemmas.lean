import Verif.Dest.Lawful
import Verif.Dest.Files
/- The file and streambuf writers: what they have been given and what they have delivered. -/
namespace Strf.Dest
variable {α : Type}

namespace Writer

theorem send_spec (acc : World α) (s : Writer α) (xs : List α) :
    (send acc s xs).2 ≤ xs.length ∧ (send acc s xs).1.file = s.file ++ xs.take (send acc s xs).2 ∧
    (send acc s xs).1.buf = s.buf ∧ (send acc s xs).1.ptr = s.ptr ∧ (send acc s xs).1.good = s.good ∧
    (send acc s xs).1.count = s.count := by
  simp [send]; omega

/-- common part of the invariants -/
def Wf (s : Writer α) : Prop := 64 ≤ s.buf.length ∧ s.ptr ≤ s.buf.length ∧ s.count = s.file.length

/-- FILE* writer: everything is in the file or the buffer, or the file holds a proper prefix -/
def Rep (s : Writer α) (t : List α) : Prop :=
  Wf s ∧ (s.good = true → s.file ++ s.buf.take s.ptr = t) ∧
    (s.good = false → s.file <+: t ∧ s.file.length < t.length)

theorem poke_wf {s : Writer α} {xs : List α} (h : Wf s) (hx : xs.length ≤ s.buf.length - s.ptr) :
    ∃ b, poke s xs = some { s with buf := b, ptr := s.ptr + xs.length } ∧ b.length = s.buf.length ∧
      b.take (s.ptr + xs.length) = s.buf.take s.ptr ++ xs ∧ Wf { s with buf := b, ptr := s.ptr + xs.length } := by
  obtain ⟨h1, h2, h3⟩ := h
  obtain ⟨b, e, hl, ht, _⟩ := storeAt_some (buf := s.buf) (i := s.ptr) (xs := xs) (by omega)
  exact ⟨b, by rw [poke, e]; rfl, hl, ht, by simp only [hl]; exact h1, by simp only [hl]; omega, h3⟩

theorem take_prefix_lt {f b xs : List α} {n : Nat} (hn : n < b.length) :
    f ++ b.take n <+: f ++ b ++ xs ∧ (f ++ b.take n).length < (f ++ b ++ xs).length := by
  constructor
  · rw [List.append_assoc]
    exact (List.prefix_append_right_inj f).mpr ((List.take_prefix n b).trans (List.prefix_append b xs))
  · simp; omega

theorem recycle_spec (acc : World α) (s : Writer α) (h : Wf s) :
    Wf (recycle acc s) ∧ (recycle acc s).ptr = 0 ∧ (recycle acc s).buf.length = s.buf.length ∧
    (s.good = false → (recycle acc s) = { s with ptr := 0 }) ∧
    (s.good = true → ∃ n, n ≤ s.ptr ∧ (recycle acc s).file = s.file ++ (s.buf.take s.ptr).take n ∧
      ((recycle acc s).good = true ↔ n = s.ptr)) := by
  obtain ⟨buf, ptr, good, count, file, calls⟩ := s
  obtain ⟨h1, h2, h3⟩ := h
  simp only at h1 h2 h3
  cases good with
  | false =>
    have e : recycle acc ⟨buf, ptr, false, count, file, calls⟩ = ⟨buf, 0, false, count, file, calls⟩ := rfl
    rw [e]
    exact ⟨⟨h1, by simp, h3⟩, rfl, rfl, fun _ => rfl, fun g => by cases g⟩
  | true =>
    obtain ⟨n, hn⟩ : ∃ n, n = min (acc calls file (buf.take ptr)) (buf.take ptr).length := ⟨_, rfl⟩
    have e : recycle acc ⟨buf, ptr, true, count, file, calls⟩ =
        ⟨buf, 0, n == ptr, count + n, file ++ (buf.take ptr).take n, calls + 1⟩ := by rw [hn]; rfl
    rw [e]
    have hl : (buf.take ptr).length = ptr := by simp; omega
    rw [hl] at hn
    refine ⟨⟨h1, by simp, ?_⟩, rfl, rfl, (fun g => by cases g), (fun _ => ⟨n, by rw [hn]; exact Nat.min_le_right _ _, rfl, by simp⟩)⟩
    simp; omega

theorem doWrite_good (acc : World α) (buf file xs : List α) (ptr count calls : Nat) :
    ∃ n, n ≤ (buf.take ptr).length ∧
    (n ≠ ptr → n < ptr + xs.length ∧
      doWrite acc ⟨buf, ptr, true, count, file, calls⟩ xs =
        ⟨buf, 0, n == ptr + xs.length, count + n, file ++ (buf.take ptr).take n, calls + 1⟩) ∧
    (n = ptr → ∃ m, m ≤ xs.length ∧ doWrite acc ⟨buf, ptr, true, count, file, calls⟩ xs =
        ⟨buf, 0, n + m == ptr + xs.length, count + (n + m), file ++ (buf.take ptr).take n ++ xs.take m, calls + 2⟩) := by
  obtain ⟨n, hn⟩ : ∃ n, n = min (acc calls file (buf.take ptr)) (buf.take ptr).length := ⟨_, rfl⟩
  refine ⟨n, by omega, fun h => ⟨?_, ?_⟩, fun h => ?_⟩
  · have : (buf.take ptr).length ≤ ptr := by simp; omega
    omega
  · simp only [doWrite, send, if_true]
    rw [← hn]
    have : (n == ptr) = false := by simpa using h
    rw [this]; rfl
  · refine ⟨min (acc (calls + 1) (file ++ (buf.take ptr).take n) xs) xs.length, by omega, ?_⟩
    simp only [doWrite, send, if_true]
    rw [← hn]
    have : (n == ptr) = true := by simpa using h
    rw [this]; rfl

theorem lawfulAll (acc : World α) : LawfulAll (cfile acc) Rep where
  poke := by
    rintro s t xs ⟨h1, h2, h3⟩ hx
    obtain ⟨b, e, hl, ht, hw⟩ := poke_wf h1 hx
    refine ⟨_, e, ⟨hw, fun g => ?_, fun g => ?_⟩, by simp only [hl]; omega, rfl⟩
    · simp only; rw [ht, ← List.append_assoc, h2 g]
    · obtain ⟨p, q⟩ := h3 g
      exact ⟨p.trans (List.prefix_append _ _), by simp only [List.length_append]; omega⟩
  recycle := by
    rintro s t ⟨h1, h2, h3⟩
    obtain ⟨w, p0, bl, hb, hg⟩ := recycle_spec acc s h1
    refine ⟨⟨w, ?_, ?_⟩, by simp only [p0, bl]; have := h1.1; omega, ?_⟩
    · intro g
      by_cases hs : s.good = true
      · obtain ⟨n, hn, hf, hgn⟩ := hg hs
        rw [hf, hgn.mp g, p0, List.take_of_length_le (l := s.buf.take s.ptr) (by simp; omega)]
        simp [h2 hs]
      · have hb' : (cfile acc).recycle s = { s with ptr := 0 } := hb (by simpa using hs)
        rw [hb'] at g; exact absurd g hs
    · intro g
      by_cases hs : s.good = true
      · obtain ⟨n, hn, hf, hgn⟩ := hg hs
        have hlt : n < (s.buf.take s.ptr).length := by
          have : n ≠ s.ptr := fun e => by rw [hgn.mpr e] at g; cases g
          have := h1.2.1
          simp; omega
        have := take_prefix_lt (f := s.file) (xs := []) hlt
        rw [List.append_nil, h2 hs] at this
        rw [hf]; exact this
      · have hb' : (cfile acc).recycle s = { s with ptr := 0 } := hb (by simpa using hs)
        rw [hb']
        exact h3 (by simpa using hs)
    · intro g
      by_cases hs : s.good = true
      · exact hs
      · simp only [hb (by simpa using hs)] at g; exact g
  doWrite := by
    rintro s t xs ⟨h1, h2, h3⟩ _
    obtain ⟨buf, ptr, good, count, file, calls⟩ := s
    obtain ⟨k1, k2, k3⟩ := h1
    simp only at k1 k2 k3 h2 h3
    refine ⟨_, rfl, ?_⟩
    cases good with
    | false =>
      have e : doWrite acc ⟨buf, ptr, false, count, file, calls⟩ xs = ⟨buf, 0, false, count, file, calls⟩ := rfl
      rw [e]
      obtain ⟨p, q⟩ := h3 rfl
      exact ⟨⟨⟨k1, by simp, k3⟩, fun g => (by cases g), fun _ => ⟨p.trans (List.prefix_append _ _), by simp; omega⟩⟩, fun g => g⟩
    | true =>
      have ht := h2 rfl
      have hl : (buf.take ptr).length = ptr := by simp; omega
      obtain ⟨n, hn, hne, heq⟩ := doWrite_good acc buf file xs ptr count calls
      refine ⟨?_, fun _ => rfl⟩
      by_cases hc : n = ptr
      · obtain ⟨m, hm, e⟩ := heq hc
        have hfull : file ++ (buf.take ptr).take n = t := by
          rw [List.take_of_length_le (l := buf.take ptr) (by omega)]; exact ht
        rw [hfull] at e
        rw [e]
        refine ⟨⟨k1, by simp, ?_⟩, fun g => ?_, fun g => ?_⟩
        · simp [← ht]; omega
        · simp at g
          have : m = xs.length := by omega
          simp [this]
        · simp at g
          have := take_prefix_lt (f := t) (b := xs) (xs := []) (n := m) (by omega)
          simpa using this
      · obtain ⟨hlt, e⟩ := hne hc
        rw [e]
        refine ⟨⟨k1, by simp, ?_⟩, fun g => ?_, fun _ => ?_⟩
        · simp; omega
        · simp at g; omega
        · have := take_prefix_lt (f := file) (b := buf.take ptr) (xs := xs) (n := n) (by omega)
          rw [ht] at this
          exact this
  bad := by
    rintro s t xs ⟨h1, h2, h3⟩ hg
    have hg' : s.good = false := hg
    obtain ⟨p, q⟩ := h3 hg'
    exact ⟨h1, by simp [hg'], fun _ => ⟨p.trans (List.prefix_append _ _), by simp; omega⟩⟩

theorem lawful (acc : World α) : Lawful (cfile acc) Rep := (lawfulAll acc).lawful

/-- a writer that has failed sends nothing more -/
theorem lawfulFrozen (acc : World α) (f : List α) (c : Nat) :
    LawfulAll (cfile acc) (fun s _ => Wf s ∧ s.good = false ∧ s.file = f ∧ s.calls = c) where
  poke := by
    rintro s t xs ⟨h1, h2, h3, h4⟩ hx
    obtain ⟨b, e, hl, ht, hw⟩ := poke_wf h1 hx
    exact ⟨_, e, ⟨hw, h2, h3, h4⟩, by simp only [hl]; omega, rfl⟩
  recycle := by
    rintro s t ⟨h1, h2, h3, h4⟩
    obtain ⟨w, p0, bl, hb, _⟩ := recycle_spec acc s h1
    refine ⟨⟨w, ?_⟩, by simp only [p0, bl]; have := h1.1; omega, ?_⟩
    · have hb' : (cfile acc).recycle s = { s with ptr := 0 } := hb h2
      rw [hb']; exact ⟨h2, h3, h4⟩
    · have hb' : (cfile acc).recycle s = { s with ptr := 0 } := hb h2
      rw [hb']; exact id
  doWrite := by
    rintro s t xs ⟨⟨k1, k2, k3⟩, h2, h3, h4⟩ _
    obtain ⟨buf, ptr, good, count, file, calls⟩ := s
    simp only at k1 k2 k3 h2 h3 h4
    subst h2
    exact ⟨_, rfl, ⟨⟨k1, Nat.zero_le _, k3⟩, rfl, h3, h4⟩, fun g => g⟩
  bad := by rintro s t xs h _; exact h

end Writer
end Strf.Dest

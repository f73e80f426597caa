import Verif.Dest.ArraysLemmas
/- What an array destination has been given, and its contract. -/
namespace Strf.Dest
variable {α : Type}
namespace Arr

/-- An array destination of `N` elements, `cap` of them writable, asked to hold the text `t`: either it is not truncated and
holds `t`, or it is, and it holds a prefix of `t` of which no more than 63 units less than `cap` were kept; `it_` then
addresses the end of that prefix, or (after a `write` that exceeded the garbage space, see `cstr_late_write_wrong`) the end
of the garbage buffer. -/
def Rep (N cap : Nat) (s : Arr α) (t : List α) : Prop :=
  InvGood N cap s t ∨
    (s.good = false ∧ (∃ g, g ≤ 64 ∧ s.ptr = .garbage g) ∧ s.end_ = .garbage 64 ∧ s.garb.length = 64 ∧
      s.arr.length = N ∧ cap ≤ N ∧
      ∃ k, k ≤ cap ∧ cap < k + 64 ∧ k ≤ t.length ∧ s.arr.take k = t.take k ∧ (s.it = .user k ∨ s.it = .garbage 64))

theorem lawful (N cap : Nat) : Lawful (dest (α := α)) (Rep N cap) where
  poke := by
    rintro s t xs (h | ⟨h1, ⟨g, hg, h2⟩, h3, h4, h5, h6, k, c1, c2, c3, c4, c5⟩) hx
    · obtain ⟨s', e, i⟩ := good_poke h xs hx
      refine ⟨s', e, .inl i, ?_, i.1.trans h.1.symm⟩
      show space s' = space s - _
      rw [good_space i, good_space h, List.length_append]; omega
    · have hsp : space s = 64 - g := by simp [space, h2, h3]
      have hx : xs.length ≤ 64 - g := by rw [← hsp]; exact hx
      obtain ⟨b, e, hl, _, _⟩ := storeAt_some (buf := s.garb) (i := g) (xs := xs) (by omega)
      refine ⟨{ s with garb := b, ptr := .garbage (g + xs.length) }, ?_,
        .inr ⟨h1, ⟨_, by omega, rfl⟩, h3, by simp [hl, h4], h5, h6, k, c1, c2, by simp; omega, ?_, c5⟩, ?_, rfl⟩
      · show poke s xs = _
        rw [poke, if_pos (by omega), h2]; simp [e]
      · rw [List.take_append_of_le_length c3]; exact c4
      · show space _ = space s - _
        rw [hsp]; simp [space, h3]; omega
  recycle := by
    rintro s t (h | ⟨h1, ⟨g, hg, h2⟩, h3, h4, h5, h6, k, c1, c2, c3, c4, c5⟩) hx
    · obtain ⟨⟨r1, r2, r3, r4, r5, r6⟩, hs⟩ := good_recycle h
      have hsp : space s < 64 := hx
      have := good_space h
      obtain ⟨g1, g2, g3, g4, g5, g6, g7, g8⟩ := h
      refine ⟨.inr ⟨r1, r2, r3, r4, by rw [r6]; exact g6, by omega, t.length, g4, by omega, by simp, ?_, .inl r5⟩, Nat.le_of_eq hs.symm,
        fun _ => g1⟩
      rw [r6, g8]; simp
    · have e : recycle s = { s with ptr := .garbage 0 } := by simp [recycle, h1]
      refine ⟨.inr ?_, ?_, ?_⟩
      · show ((recycle s).good = false ∧ (∃ g, g ≤ 64 ∧ (recycle s).ptr = .garbage g) ∧ (recycle s).end_ = .garbage 64 ∧
          (recycle s).garb.length = 64 ∧ (recycle s).arr.length = N ∧ cap ≤ N ∧ ∃ k, k ≤ cap ∧ cap < k + 64 ∧ k ≤ t.length ∧
          (recycle s).arr.take k = t.take k ∧ ((recycle s).it = .user k ∨ (recycle s).it = .garbage 64))
        rw [e]
        exact ⟨h1, ⟨0, by omega, rfl⟩, h3, h4, h5, h6, k, c1, c2, c3, c4, c5⟩
      · show 64 ≤ space (recycle s)
        rw [e]; simp [space, h3]
      · show (recycle s).good = true → _
        rw [e]; exact id
  doWrite := by
    rintro s t xs (h | ⟨h1, ⟨g, hg, h2⟩, h3, h4, h5, h6, k, c1, c2, c3, c4, c5⟩) hx
    · obtain ⟨s', e, i⟩ := good_doWrite (plain := True) (exact := True) h xs hx
      refine ⟨s', e, ?_, fun _ => h.1⟩
      rcases i with i | ⟨A, k, ⟨b1, b2, b3, b4, b5, b6⟩, d1, d2, d3, d4, d5, d6, d7⟩
      · exact .inl i
      · exact .inr ⟨b1, b2, b3, b4, by rw [b6]; exact d1, d3, k, d2, by have := d6 trivial; omega, d4, by rw [b6]; exact d5, .inl b5⟩
    · have hsp : space s = 64 - g := by simp [space, h2, h3]
      have hx : 64 - g < xs.length := by rw [← hsp]; exact hx
      obtain ⟨b, e, hl, _, _⟩ := storeAt_some (buf := s.garb) (i := g) (xs := xs.take (space s)) (by simp; omega)
      refine ⟨{ s with garb := b, it := .garbage 64, ptr := .garbage 0, end_ := .garbage 64, good := false }, ?_,
        .inr ⟨rfl, ⟨0, by omega, rfl⟩, rfl, by simp [hl, h4], h5, h6, k, c1, c2, by simp; omega, ?_, .inr rfl⟩, ?_⟩
      · show doWrite s xs = _
        unfold doWrite
        dsimp only
        rw [if_neg (by omega), poke, if_pos (by rw [List.length_take]; exact Nat.min_le_left _ _), h2]
        dsimp only
        rw [e]
        simp only [Option.map_some, h3]
      · rw [List.take_append_of_le_length c3]; exact c4
      · intro h; cases h
  bad := by
    rintro s t xs (h | ⟨h1, h2, h3, h4, h5, h6, k, c1, c2, c3, c4, c5⟩) hg
    · have := h.1; simp [this] at hg
    · exact .inr ⟨h1, h2, h3, h4, h5, h6, k, c1, c2, by simp; omega, by rw [List.take_append_of_le_length c3]; exact c4, c5⟩

theorem rep_initCstr (arr garb : List α) (hg : garb.length = 64) :
    Rep arr.length (arr.length - 1) (initCstr arr garb) [] :=
  .inl ⟨rfl, rfl, rfl, by simp, by simp [initCstr], rfl, hg, by simp⟩

theorem rep_initArray (arr garb : List α) (hg : garb.length = 64) :
    Rep arr.length arr.length (initArray arr garb) [] :=
  .inl ⟨rfl, rfl, rfl, by simp, by simp [initArray], rfl, hg, by simp⟩

/-- What can be said of a char array when printing ends: a prefix of the text is in it, all but at most 63 of the units
that it can hold are used if the text is longer. If `finish()` has no undefined behaviour, then the prefix is terminated, and
not being truncated means that the whole text is there; a text with more than 64 units less than the array is never truncated. -/
theorem finishCstr_of_rep (zero : α) {N cap : Nat} {s : Arr α} {t : List α} (h : Rep N cap s t) (hc : cap + 1 = N) :
    (∃ k, k ≤ t.length ∧ k ≤ cap ∧ s.arr.take k = t.take k ∧ (t.length + 64 < N → k = t.length)) ∧
    (s.good = true ∨ s.it ≠ .garbage 64 ↔ (finishCstr zero s).isSome = true) ∧
    (s.good = true → t.length ≤ cap) ∧ (t.length + 64 < N → s.good = true) ∧
    ∀ s' p truncated, finishCstr zero s = some (s', p, truncated) →
      s'.arr.length = N ∧ ∃ k, p = .user k ∧ k < N ∧ k ≤ t.length ∧ s'.arr.take (k + 1) = t.take k ++ [zero] ∧
      (truncated = false → k = t.length) ∧ (truncated = !s.good) := by
  rcases h with ⟨h1, h2, h3, h4, h5, h6, h7, h8⟩ | ⟨h1, ⟨g, hg, h2⟩, h3, h4, h5, h6, k, c1, c2, c3, c4, c5⟩
  · obtain ⟨a, ea, la, ta, _⟩ := storeAt_some (buf := s.arr) (i := t.length) (xs := [zero]) (by simp; omega)
    have e : finishCstr zero s = some ({ s with arr := a, ptr := .garbage 0, end_ := .garbage 64, it := s.ptr, good := false }, .user t.length, false) := by
      simp [finishCstr, h1, Arr.assign, h2, ea]
    refine ⟨⟨t.length, by simp, h4, by simp [h8], fun _ => rfl⟩, ?_, fun _ => h4, fun _ => h1, ?_⟩
    · rw [e]; simp [h1]
    · intro s' p tr ee
      rw [e] at ee
      cases ee
      refine ⟨by simp [la, h6], t.length, rfl, by omega, by simp, ?_, fun _ => rfl, by simp [h1]⟩
      simp only [List.length_singleton] at ta
      simp only [ta, h8, List.take_length]
  · refine ⟨⟨k, c3, c1, c4, fun h => by omega⟩, ?_, fun h => by simp [h1] at h, fun h => by omega, ?_⟩
    · rcases c5 with c5 | c5
      · obtain ⟨a, ea, la, ta, _⟩ := storeAt_some (buf := s.arr) (i := k) (xs := [zero]) (by simp; omega)
        simp [finishCstr, h1, Arr.assign, c5, ea]
      · have : storeAt s.garb 64 [zero] = none := by
          unfold storeAt; rw [if_neg (by simp; omega)]
        simp [finishCstr, h1, Arr.assign, c5, this]
    · intro s' p tr ee
      rcases c5 with c5 | c5
      · obtain ⟨a, ea, la, ta, _⟩ := storeAt_some (buf := s.arr) (i := k) (xs := [zero]) (by simp; omega)
        have e : finishCstr zero s = some ({ s with arr := a, ptr := .garbage 0, end_ := .garbage 64 }, .user k, true) := by
          simp [finishCstr, h1, Arr.assign, c5, ea]
        rw [e] at ee
        cases ee
        refine ⟨by simp [la, h5], k, rfl, by omega, c3, ?_, by simp, by simp [h1]⟩
        simp only [List.length_singleton] at ta
        simp only [ta, c4]
      · have : storeAt s.garb 64 [zero] = none := by
          unfold storeAt; rw [if_neg (by simp; omega)]
        simp [finishCstr, h1, Arr.assign, c5, this] at ee

/-- The same for a range without terminator. -/
theorem finishArray_of_rep {N cap : Nat} {s : Arr α} {t : List α} (h : Rep N cap s t) (hc : cap = N) :
    s.arr.length = N ∧ (t.length + 64 ≤ N → (finishArray s).2 = false) ∧
    ∃ k, k ≤ t.length ∧ k ≤ N ∧ s.arr.take k = t.take k ∧ ((finishArray s).2 = false → k = t.length) ∧
      ((finishArray s).2 = true → N < k + 64) ∧ ((finishArray s).1 = .user k ∨ (finishArray s).2 = true ∧ (finishArray s).1 = .garbage 64) := by
  subst hc
  rcases h with ⟨h1, h2, h3, h4, h5, h6, h7, h8⟩ | ⟨h1, ⟨g, hg, h2⟩, h3, h4, h5, h6, k, c1, c2, c3, c4, c5⟩
  · refine ⟨h6, fun _ => by simp [finishArray, h1], t.length, by simp, h4, by simp [h8], fun _ => rfl, by simp [finishArray, h1], .inl ?_⟩
    simp [finishArray, h1, h2]
  · refine ⟨h5, fun h => by omega, k, c3, c1, c4, by simp [finishArray, h1], fun _ => c2, ?_⟩
    simpa [finishArray, h1] using c5

end Arr
end Strf.Dest

import Verif.Dest.ArraysRep
import Verif.Dest.StringsLemmas
import Verif.Dest.FilesLemmas
import Verif.Dest.StreambufLemmas
import Verif.Dest.Finish
/-
What the destinations do with a text for which there is room from the start, when no more room is asked of them than the text needs (`After true`).
-/
namespace Strf.Dest
variable {α : Type}

/-! ### arrays -/

namespace Arr

/-- a char array of `N ≥ 1` elements is truncated just if the text has more than `N - 1` units -/
theorem fits_cstr (zero : α) {arr garb : List α} {s : Arr α} {t : List α} (hN : 1 ≤ arr.length) (r : Rep arr.length (arr.length - 1) s t)
    (a : After true dest (initCstr arr garb) s t.length) :
    (t.length < arr.length → ∃ s', finishCstr zero s = some (s', .user t.length, false) ∧ s'.arr.length = arr.length ∧
      s'.arr.take (t.length + 1) = t ++ [zero]) ∧
    (arr.length ≤ t.length → s.good = false ∧ ∀ s' p truncated, finishCstr zero s = some (s', p, truncated) → truncated = true) := by
  obtain ⟨_, f2, f3, _, f5⟩ := finishCstr_of_rep zero r (by omega)
  constructor
  · intro h
    have hg : s.good = true := by
      refine (a.2 rfl rfl ?_).2
      simp [initCstr, space]; omega
    obtain ⟨⟨s', p, tr⟩, es⟩ := Option.isSome_iff_exists.mp (f2.1 (.inl hg))
    obtain ⟨hl, k, hp, _, _, ht, hk, htr⟩ := f5 s' p tr es
    have htr' : tr = false := by rw [htr, hg]; rfl
    obtain rfl := hk htr'
    exact ⟨s', by rw [es, hp, htr'], hl, by rw [ht]; simp⟩
  · intro h
    have hg : s.good = false := by
      cases hg : s.good with
      | false => rfl
      | true => have := f3 hg; omega
    refine ⟨hg, fun s' p tr es => ?_⟩
    obtain ⟨_, k, _, _, _, _, _, htr⟩ := f5 s' p tr es
    rw [htr, hg]; rfl

/-- a range of `N` elements is truncated just if the text has more than `N` units -/
theorem fits_range {arr garb : List α} {s : Arr α} {t : List α} (r : Rep arr.length arr.length s t)
    (a : After true dest (initArray arr garb) s t.length) :
    ((finishArray s).2 = true ↔ arr.length < t.length) ∧
    (t.length ≤ arr.length → finishArray s = (.user t.length, false) ∧ s.arr.length = arr.length ∧ s.arr.take t.length = t) := by
  obtain ⟨h1, _, k, k1, k2, k3, k4, k5, k6⟩ := finishArray_of_rep r rfl
  have hfit : t.length ≤ arr.length → (finishArray s).2 = false := by
    intro h
    have hg : s.good = true := by
      refine (a.2 rfl rfl ?_).2
      simp [initArray, space]; omega
    rcases r with r | r
    · simp [finishArray, hg]
    · rw [r.1] at hg; cases hg
  refine ⟨⟨fun h => ?_, fun h => ?_⟩, fun h => ?_⟩
  · refine Nat.lt_of_not_le fun hn => ?_
    rw [hfit hn] at h; cases h
  · cases hf : (finishArray s).2 with
    | true => rfl
    | false => have := k4 hf; omega
  · have hf := hfit h
    obtain rfl := k4 hf
    rcases k6 with k6 | k6
    · exact ⟨Prod.ext k6 hf, h1, by rw [k3]; simp⟩
    · rw [hf] at k6; cases k6.1

end Arr

/-! ### strings created with a size -/

namespace Sized

/-- the string has the size it was created with, or it is larger by now -/
def RepN (n : Nat) (s : Sized α) (t : List α) : Prop := Rep s t ∧ (s.end_ = n ∧ s.str.length = n ∨ n < s.end_)

theorem lawfulCoreN (zero : α) (n : Nat) : LawfulCore (core zero) (RepN n) where
  poke := by
    rintro s t xs ⟨h, hn⟩ hx
    obtain ⟨s', e, r, sp, g⟩ := (lawfulCore zero).poke s t xs h hx
    refine ⟨s', e, ⟨r, ?_⟩, sp, g⟩
    change poke s xs = some s' at e
    unfold poke at e
    split at e
    · obtain ⟨b, eb, rfl⟩ := Option.map_eq_some_iff.mp e
      have := storeAt_length eb
      rcases hn with hn | hn
      · exact .inl ⟨hn.1, this.trans hn.2⟩
      · exact .inr hn
    · cases e
  recycle := by
    rintro s t ⟨h, hn⟩ hx
    obtain ⟨r, sp, g⟩ := rep_recycle zero h
    refine ⟨⟨r, .inr ?_⟩, sp, g⟩
    simp only [core] at hx
    simp only [core, recycle]
    rcases hn with hn | hn <;> omega
  bad := by
    rintro s t xs ⟨⟨_, _, h3, _⟩, _⟩ hg
    simp only [core] at hg; simp [h3] at hg

theorem lawfulN (zero : α) (n : Nat) : Lawful (dest zero) (RepN n) where
  poke := (lawfulCoreN zero n).poke
  recycle := (lawfulCoreN zero n).recycle
  doWrite := by
    intro s t xs h _
    exact (lawfulCoreN zero n).baseDoWrite (xs.length + 1) s t xs h (Or.inl (by omega)) (by omega)
  bad := (lawfulCoreN zero n).bad

/-- the size with which the string is created -/
def sizeFor (n : Nat) : Nat := if n ≠ 0 then n else 1

theorem repN_init (zero : α) (n : Nat) : RepN (sizeFor n) (init zero n) [] :=
  ⟨rep_init zero n, .inl ⟨rfl, by simp [init, sizeFor]⟩⟩

/-- a string created with a size that is enough keeps that size until finish() -/
theorem fits {zero : α} {n : Nat} {s : Sized α} {t : List α} (r : RepN (sizeFor n) s t) (a : After true (dest zero) (init zero n) s t.length)
    (h : t.length ≤ n) : s.str.length = sizeFor n := by
  obtain ⟨⟨h1, h2, _, h4⟩, hn⟩ := r
  have hsp : (dest zero).space (init zero n) = sizeFor n := by simp [init, sizeFor]
  have hle : t.length ≤ sizeFor n := by unfold sizeFor; split <;> omega
  have := (a.2 rfl rfl (by rw [hsp]; exact hle)).1
  rw [hsp] at this
  simp only at this
  have hl : s.ptr = t.length := by rw [← h4]; simp; omega
  rcases hn with hn | hn
  · exact hn.2
  · omega

end Sized

/-! ### files and streams -/

namespace Writer

/-- the buffer has `b` units; nothing has been written to the file yet, or something has, or writing failed -/
def Once (b : Nat) (s : Writer α) : Prop := s.buf.length = b ∧ (s.calls = 0 ∨ s.good = false ∨ s.file ≠ [])

theorem poke_once {b : Nat} {s s' : Writer α} {xs : List α} (h : Once b s) (e : poke s xs = some s') : Once b s' := by
  unfold poke at e
  obtain ⟨b', eb, rfl⟩ := Option.map_eq_some_iff.mp e
  have := storeAt_length eb
  exact ⟨by simp only [this]; exact h.1, h.2⟩

theorem recycle_once {b : Nat} (acc : World α) {s : Writer α} (w : Wf s) (h : Once b s) (hx : s.buf.length - s.ptr < 64) :
    Once b (recycle acc s) := by
  obtain ⟨_, _, bl, hb, hg⟩ := recycle_spec acc s w
  refine ⟨by rw [bl]; exact h.1, ?_⟩
  cases hs : s.good with
  | false => rw [hb hs]; exact .inr (.inl hs)
  | true =>
    obtain ⟨n, _, hf, hgn⟩ := hg hs
    cases hr : (recycle acc s).good with
    | false => exact .inr (.inl rfl)
    | true =>
      refine .inr (.inr ?_)
      rw [hf, hgn.1 hr]
      have := w.1
      have := w.2.1
      intro hnil
      have := congrArg List.length hnil
      rw [List.length_append, List.length_take, List.length_take, List.length_nil] at this
      omega

theorem lawfulOnce (acc : World α) (b : Nat) : Lawful (cfile acc) (fun s t => Rep s t ∧ Once b s) where
  poke := by
    rintro s t xs ⟨h, ho⟩ hx
    obtain ⟨s', e, r, sp, g⟩ := (lawful acc).poke s t xs h hx
    exact ⟨s', e, ⟨r, poke_once ho e⟩, sp, g⟩
  recycle := by
    rintro s t ⟨h, ho⟩ hx
    obtain ⟨r, sp, g⟩ := (lawful acc).recycle s t h hx
    exact ⟨⟨r, recycle_once acc h.1 ho hx⟩, sp, g⟩
  doWrite := by
    rintro s t xs ⟨h, ho⟩ hx
    obtain ⟨s', e, r, g⟩ := (lawful acc).doWrite s t xs h hx
    refine ⟨s', e, ⟨r, ?_⟩, g⟩
    have e : doWrite acc s xs = s' := by simpa [cfile] using e
    have hx : s.buf.length - s.ptr < xs.length := hx
    have bl : s'.buf = s.buf := by
      rw [← e]; unfold doWrite; dsimp only
      split
      · dsimp only [send]; cases hc : (min (acc s.calls s.file (List.take s.ptr s.buf)) (List.take s.ptr s.buf).length == s.ptr) <;> rfl
      · rfl
    refine ⟨by rw [bl]; exact ho.1, ?_⟩
    cases hg : s'.good with
    | false => exact .inr (.inl rfl)
    | true =>
      refine .inr (.inr fun hnil => ?_)
      have := r.2.1 hg
      have hp : s'.ptr = 0 := by
        rw [← e]; unfold doWrite; dsimp only
        split
        · dsimp only [send]; cases hc : (min (acc s.calls s.file (List.take s.ptr s.buf)) (List.take s.ptr s.buf).length == s.ptr) <;> rfl
        · rfl
      rw [hnil, hp] at this
      have := congrArg List.length this
      rw [List.length_append, List.length_append, List.length_take, List.length_nil] at this
      omega
  bad := by
    rintro s t xs ⟨h, ho⟩ hg
    exact ⟨(lawful acc).bad s t xs h hg, ho⟩

theorem lawfulOnceSb (acc : World α) (b : Nat) : Lawful (streambuf acc) (fun s t => RepSb s t ∧ Once b s) where
  poke := by
    rintro s t xs ⟨h, ho⟩ hx
    obtain ⟨s', e, r, sp, g⟩ := (lawfulSb acc).poke s t xs h hx
    exact ⟨s', e, ⟨r, poke_once ho e⟩, sp, g⟩
  recycle := by
    rintro s t ⟨h, ho⟩ hx
    obtain ⟨r, sp, g⟩ := (lawfulSb acc).recycle s t h hx
    exact ⟨⟨r, recycle_once acc h.1 ho hx⟩, sp, g⟩
  doWrite := by
    rintro s t xs ⟨h, ho⟩ hx
    obtain ⟨s', e, r, g⟩ := (lawfulSb acc).doWrite s t xs h hx
    refine ⟨s', e, ⟨r, ?_⟩, g⟩
    have e : doWriteSb acc s xs = s' := by simpa [streambuf] using e
    have hx : s.buf.length - s.ptr < xs.length := hx
    have bl : s'.buf = s.buf := by
      rw [← e]; unfold doWriteSb; dsimp only; split <;> rfl
    refine ⟨by rw [bl]; exact ho.1, ?_⟩
    cases hg : s'.good with
    | false => exact .inr (.inl rfl)
    | true =>
      refine .inr (.inr fun hnil => ?_)
      have := r.2.1 hg
      have hp : s'.ptr = 0 := by
        rw [← e]; unfold doWriteSb; dsimp only; split <;> rfl
      rw [hnil, hp] at this
      have := congrArg List.length this
      rw [List.length_append, List.length_append, List.length_take, List.length_nil] at this
      omega
  bad := by
    rintro s t xs ⟨h, ho⟩ hg
    exact ⟨(lawfulSb acc).bad s t xs h hg, ho⟩

theorem once_init (junk : List α) : Once junk.length (init junk) := ⟨rfl, .inl rfl⟩

/-- a text that fits the buffer is all in it, and nothing has been written to the file -/
theorem unsent {D : Dest α (Writer α)} (hD : D.space = (fun s => s.buf.length - s.ptr)) (hg : D.good = (·.good)) {junk : List α} {s : Writer α} {t : List α}
    (w : Wf s) (ht : s.good = true → s.file ++ s.buf.take s.ptr = t) (o : Once junk.length s) (a : After true D (init junk) s t.length) (h : t.length ≤ junk.length) :
    s.good = true ∧ s.calls = 0 ∧ s.file = [] ∧ s.buf.take s.ptr = t := by
  have ha := a.2 rfl (by rw [hg]; rfl) (by rw [hD]; simpa [init] using h)
  rw [hg, hD] at ha
  obtain ⟨sp, g⟩ := ha
  replace g : s.good = true := g
  have e := ht g
  simp only [init, Nat.sub_zero, o.1] at sp
  have hp : s.ptr = t.length := by
    have := w.2.1
    rw [o.1] at this
    omega
  have hf : s.file = [] := by
    have := congrArg List.length e
    have := w.2.1
    simp at *
    apply List.eq_nil_of_length_eq_zero
    omega
  rw [hf, List.nil_append] at e
  refine ⟨g, ?_, hf, e⟩
  rcases o.2 with o | o | o
  · exact o
  · rw [g] at o; cases o
  · exact absurd hf o

/-- then finish() writes it with one call -/
theorem fits {acc : World α} {junk : List α} {s : Writer α} {t : List α} (r : Rep s t) (o : Once junk.length s)
    (a : After true (cfile acc) (init junk) s t.length) (h : t.length ≤ junk.length) :
    s.calls = 0 ∧ s.file = [] ∧ (finish acc s).1.calls = 1 ∧ (finish acc s).1.file = t.take (acc 0 [] t) := by
  obtain ⟨g, c, f, e⟩ := unsent rfl rfl r.1 r.2.1 o a h
  refine ⟨c, f, ?_, ?_⟩
  · simp [finish, g, send, c]
  · simp only [finish, g, if_true, send, c, f, e, List.nil_append]
    rw [Nat.min_def]; split
    · rfl
    · rw [List.take_of_length_le (by omega), List.take_of_length_le (by omega)]

theorem fitsSb {acc : World α} {junk : List α} {s : Writer α} {t : List α} (r : RepSb s t) (o : Once junk.length s)
    (a : After true (streambuf acc) (init junk) s t.length) (h : t.length ≤ junk.length) :
    s.calls = 0 ∧ s.file = [] ∧ (finishSb acc s).1.calls = 1 ∧ (finishSb acc s).1.file = t.take (acc 0 [] t) := by
  obtain ⟨g, c, f, e⟩ := unsent rfl rfl r.1 r.2.1 o a h
  refine ⟨c, f, ?_, ?_⟩
  · simp [finishSb, g, send, c]
  · simp only [finishSb, g, if_true, send, c, f, e, List.nil_append]
    rw [Nat.min_def]; split
    · rfl
    · rw [List.take_of_length_le (by omega), List.take_of_length_le (by omega)]

end Writer
end Strf.Dest

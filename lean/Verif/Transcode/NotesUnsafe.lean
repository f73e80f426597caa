import Verif.Transcode.NotesProps
import Verif.Transcode.CallProps
/-!
# C85: what the notifier is told by unsafe_transcode to a destination
-/
namespace Strf.Transcode
open Strf.Format (CsName CharT CharsetArg)
open Strf.Utf (Reason)
open Strf.Sbc (Flags)
open Strf.Charset (Func Event OnceOrTwice DERes DEPtr)
open Strf.Dest (Dest Lawful)

variable {σ : Type} {D : Dest Nat σ} {Rep : σ → List Nat → Prop}

/-- C85: unsafe_transcode to a destination of any kind, on sources without ill-formed sequences: the notifier is told of the characters
that the charset lacks, once or twice, and of nothing else. -/
theorem unsafe_transcode_dst_notes_partial (L : Lawful D Rep) (S T : CharT) (s d : CharsetArg) (hs : s.name.unitSize = S.size)
    (hd : d.name.unitSize = T.size) (f : Flags) (src : List Nat) (ms : List Mark) (hu : Units s.name src)
    (hm : Marks f.lax s.name src ms) (hsp : Spared false f s.name d.name ms) (hw : ∀ m ∈ ms, m.bad = false) (st : σ) (t : List Nat)
    (hr : Rep st t) (hg : D.good st = true) :
    ∃ st' q out todo, unsafeTranscodeDst D S T s d f st src = some (st', q) ∧ Rep st' (t ++ out) ∧ q.count = out.length ∧
      Reached f d.name src ms todo out q.stale q.u32dist ∧ (q.why = .completed ↔ todo = []) ∧
      (q.why = .insufficient → D.good st' = false) ∧ ToldApart d.name src ms todo q.why q.events := by
  have hL : Sound f s.name d.name src ms := ⟨⟨hu, hm, hsp⟩, hw⟩
  unfold unsafeTranscodeDst
  rw [find_exact S T s d hs hd]
  cases h : hasSpec s.name d.name with
  | true =>
    rw [if_pos rfl]
    dsimp only
    unfold Charset.transcodeTo
    rw [if_neg (by simp [hg])]
    obtain ⟨s', q, done, todo, e, h5, h1, h2, h3, h4, h6, h7, -⟩ := (unsafe_tells f s.name d.name h).loop L
      (sound_reads f _ _) (fun m => units_length d.name m.char) (src.length + 2) st t src ms hL hr
      (by have := hm.length; omega)
    rw [e]
    refine ⟨s', _, text d.name done, todo, rfl, h5, h3, ⟨done, [], by simpa using h1, by simpa using h2, by simp, h4, rfl⟩,
      ends_done h6, ?_, Told.apart _ ⟨done, h1, h7⟩⟩
    intro hw
    dsimp only at hw
    rcases todo with _ | ⟨m, todo⟩
    · rw [show q.why = _ from h6] at hw; cases hw
    · rcases h6 with ⟨-, h, -⟩ | ⟨-, -, h⟩
      · exact absurd hw h
      · exact h
  | false =>
    rw [if_neg (by simp)]
    dsimp only
    unfold Charset.decodeEncodeTo
    rw [if_neg (by simp [hg])]
    obtain ⟨s', q, done, near, todo, e, hR, e0, hn, e1, e2, e3, hE, hS⟩ := deLoop_said L (to_unsafe_tells f s.name d.name)
      (sound_reads f _ _) (from_encodes_telling f d.name) (units_length d.name)
      (fun src ms h => marks_codable h.1)
      (fun src ms h m hmem hst => bad_supported (fun hb => marks_bad h.1.2.1 m hmem hb) hst)
      (src.length + 1) st t src ms hL hr (by have := hm.length; omega)
    refine ⟨s', q, text d.name (done ++ near), todo, e, hR, e1, ?_, pivotEnds_done hE, ?_, ?_⟩
    · rw [e2, e3]
      exact reached_of_pivot (marks_bad hm) e0 hn
    · intro hw
      rcases todo with _ | ⟨m, todo⟩
      · rw [hE.2] at hw; cases hw
      · rcases hE with ⟨-, -, h, -⟩ | ⟨-, -, h⟩ | ⟨-, -, -, h⟩
        · exact absurd hw h
        · rw [hw] at h; cases h
        · exact h
    · subst e0
      exact Said.apart (marks_bad hm) hS

/-- C85: without stop flags, unless the destination fails: those of the whole source. -/
theorem unsafe_transcode_dst_notes_all_partial (L : Lawful D Rep) (S T : CharT) (s d : CharsetArg) (hs : s.name.unitSize = S.size)
    (hd : d.name.unitSize = T.size) (lax : Bool) (src : List Nat) (ms : List Mark) (hu : Units s.name src)
    (hm : Marks lax s.name src ms) (hsp : Spared false ⟨lax, false, false⟩ s.name d.name ms) (hw : ∀ m ∈ ms, m.bad = false) (st : σ)
    (t : List Nat) (hr : Rep st t) (hg : D.good st = true) :
    ∃ st' q, unsafeTranscodeDst D S T s d ⟨lax, false, false⟩ st src = some (st', q) ∧
      (D.good st' = true → q.why = .completed ∧
        OnceOrTwice (invalids (notes d.name src.length ms)) (invalids q.events) ∧
        OnceOrTwice (unsupporteds (notes d.name src.length ms)) (unsupporteds q.events)) := by
  obtain ⟨st', q, out, todo, e, h1, h2, h3, h4, h5, before, ahead, e0, h6, -, h7, h8, h9⟩ := unsafe_transcode_dst_notes_partial L S T s d hs hd
    ⟨lax, false, false⟩ src ms hu hm hsp hw st t hr hg
  have hC := (unsafe_transcode_dst_partial L S T s d hs hd ⟨lax, false, false⟩ src ms hu hm hsp hw st t hr).2 hg
  obtain ⟨st2, q2, out2, e2, -, -, -, todo2, -, hw2⟩ := hC
  dsimp only at e2
  rw [e] at e2
  injection e2 with e2
  injection e2 with e2 e3
  subst e2 e3
  refine ⟨st', q, e, fun hgood => ?_⟩
  have hw : q.why = .completed := by
    cases hq : q.why with
    | completed => rfl
    | insufficient => rw [h5 hq] at hgood; cases hgood
    | invalid => rw [hq] at hw2; obtain ⟨-, m, t, -, h⟩ := hw2; simp [stopAt] at h
    | unsupported => rw [hq] at hw2; obtain ⟨m, t, -, h⟩ := hw2; simp [stopAt] at h
  have ht := h4.1 hw
  subst ht
  have : ahead = [] := List.prefix_nil.1 h6
  subst this
  simp only [List.append_nil, List.take_nil] at e0 h8 h9
  subst e0
  exact ⟨hw, h8, h9⟩

end Strf.Transcode

import Verif.Transcode.NotesLoops
/-!
# C85: what the error notifier is told in conversions between any two charsets

The claims are in NotesSpec.lean: `notes` (what is to be said), `Told`, `ToldApart`.
-/
namespace Strf.Transcode
open Strf.Format (CsName CharT CharsetArg)
open Strf.Utf (Reason)
open Strf.Sbc (Flags)
open Strf.Charset (Func Event OnceOrTwice DERes DEPtr)
open Strf.Dest (Dest Lawful)

variable {σ : Type} {D : Dest Nat σ} {Rep : σ → List Nat → Prop}

/-- charsets between which there is a direct conversion: two UTFs, one charset and itself, one of them UTF-32 -/
def Direct : CsName → CsName → Prop
  | .utf _, .utf _ => True
  | .sbc i, .sbc j => i = j
  | .sbc _, .utf e => e = .utf32
  | .utf e, .sbc _ => e = .utf32

theorem direct_iff (s d : CsName) : hasSpec s d = true ↔ Direct s d := by
  cases s <;> cases d <;> simp [hasSpec, Direct]

/-! ## From the lemmas to the claims -/

theorem Told.apart {d : CsName} {src : List Nat} {ms todo : List Mark} {events : List Event} (why : Reason)
    (h : Told d src ms todo events) : ToldApart d src ms todo why events := by
  obtain ⟨before, e, h⟩ := h
  exact ⟨before, todo.take 1, e, List.take_prefix _ _, by rw [List.length_take]; omega, fun _ => rfl, OnceOrTwice.filter _ h, OnceOrTwice.filter _ h⟩

theorem Said.apart {d : CsName} {src : List Nat} {done near todo : List Mark} {why : Reason} {events : List Event}
    (hb : ∀ m ∈ done ++ near ++ todo, m.bad = true → m.char = 0xFFFD) (h : Said d src.length done near todo why events) :
    ToldApart d src (done ++ near ++ todo) todo why events := by
  obtain ⟨ahead, h1, h2, h3, h4, -⟩ := h.inv
  refine ⟨done ++ near, ahead, rfl, h1, by omega, h3, ?_, ?_⟩
  · rw [notes_utf .utf32 d] at h4; exact h4
  · have := h.uns
    rwa [lacking_notes d _ (fun m hm => hb m ?_) src.length] at this
    rcases List.mem_append.1 hm with hm | hm
    · exact List.mem_append_left _ hm
    · exact List.mem_append_right _ (List.mem_of_mem_take hm)

theorem reached_of_pivot {f : Flags} {d : CsName} {src : List Nat} {ms done near todo : List Mark}
    (hb : ∀ m ∈ ms, m.bad = true → m.char = 0xFFFD) (e : ms = done ++ near ++ todo)
    (hn : ∀ m ∈ done ++ near, stopAt f (.utf .utf32) m = none ∧ lacks f d m.char = false) :
    Reached f d src ms todo (text d (done ++ near)) (src.drop (extent done)) near.length := by
  refine ⟨done, near, e, ?_, rfl, rfl, rfl⟩
  intro m hm
  rw [stopAt_split (hb m (by rw [e]; exact List.mem_append_left _ hm)), (hn m hm).1, (hn m hm).2]
  rfl

theorem bad_supported {f : Flags} {d : CsName} {m : Mark} (hb : m.bad = true → m.char = 0xFFFD)
    (h : stopAt f (.utf .utf32) m ≠ none) : supported d m.char = true := by
  unfold stopAt at h
  cases hm : m.bad with
  | true => rw [hb hm]; cases d <;> simp [supported]
  | false => rw [hm] at h; simp [supported] at h

theorem ends_done {stop : Mark → Option Reason} {full : Mark → Prop} {todo : List Mark} {why : Reason} (h : Ends stop full todo why) :
    why = .completed ↔ todo = [] := by
  rcases todo with _ | ⟨m, todo⟩
  · exact ⟨fun _ => rfl, fun _ => h⟩
  · simp only [reduceCtorEq, iff_false]
    rcases h with ⟨-, -, h⟩ | ⟨-, rfl, -⟩
    · exact h
    · simp

theorem pivotEnds_done {stop : Mark → Option Reason} {u : Nat → Bool} {full : Mark → Prop} {near todo : List Mark} {why : Reason}
    (h : PivotEnds stop u full near todo why) : why = .completed ↔ todo = [] := by
  rcases todo with _ | ⟨m, todo⟩
  · simpa using h.2
  · simp only [reduceCtorEq, iff_false]
    rcases h with ⟨-, -, -, h⟩ | ⟨-, -, rfl⟩ | ⟨-, -, rfl, -⟩
    · exact h
    · simp
    · simp

/-! ## Direct conversions -/

/-- C85: a direct conversion to a pointer range tells the notifier of each problem exactly once, in order: those of the marks converted,
and that of the mark at which it ended, for whatever reason (also for lack of room). -/
theorem direct_notes_partial (S T : CharT) (s d : CharsetArg) (hs : s.name.unitSize = S.size) (hd : d.name.unitSize = T.size)
    (hdir : Direct s.name d.name) (f : Flags) (room : Nat) (src : List Nat) (ms : List Mark) (hu : Units s.name src)
    (hm : Marks f.lax s.name src ms) (hsp : Spared true f s.name d.name ms) :
    ∃ x before todo, transcode S T s d f room src = some x ∧ ms = before ++ todo ∧
      Reached f d.name src ms todo x.out x.stale x.u32dist ∧ (x.why = .completed ↔ todo = []) ∧
      x.events = notes d.name src.length (before ++ todo.take 1) := by
  unfold transcode
  rw [find_exact S T s d hs hd, if_pos ((direct_iff _ _).2 hdir)]
  obtain ⟨done, todo, why, e0, hn, hl, e1, hE⟩ := tr_tells f s.name d.name ((direct_iff _ _).2 hdir) room src ms ⟨hu, hm, hsp⟩
  dsimp only
  rw [e1]
  exact ⟨_, done, todo, rfl, e0, ⟨done, [], by simpa using e0, by simpa using hn, by simp [text], rfl, rfl⟩, ends_done hE, rfl⟩

/-- C85: a direct conversion to a destination of any kind tells it of each problem once or twice, in order. Missing: exactly once
(`Charset.notified_twice_wrong`). -/
theorem direct_dst_notes_partial (L : Lawful D Rep) (S T : CharT) (s d : CharsetArg) (hs : s.name.unitSize = S.size)
    (hd : d.name.unitSize = T.size) (hdir : Direct s.name d.name) (f : Flags) (src : List Nat) (ms : List Mark) (hu : Units s.name src)
    (hm : Marks f.lax s.name src ms) (hsp : Spared true f s.name d.name ms) (st : σ) (t : List Nat) (hr : Rep st t)
    (hg : D.good st = true) :
    ∃ st' q out todo, transcodeDst D S T s d f st src = some (st', q) ∧ Rep st' (t ++ out) ∧ q.count = out.length ∧
      Reached f d.name src ms todo out q.stale q.u32dist ∧ (q.why = .completed ↔ todo = []) ∧
      (q.why = .insufficient → D.good st' = false) ∧ Told d.name src ms todo q.events := by
  unfold transcodeDst
  rw [find_exact S T s d hs hd, if_pos ((direct_iff _ _).2 hdir)]
  dsimp only
  unfold Charset.transcodeTo
  rw [if_neg (by simp [hg])]
  obtain ⟨s', q, done, todo, e, h5, h1, h2, h3, h4, h6, h7, -⟩ := (tr_tells f s.name d.name ((direct_iff _ _).2 hdir)).loop L
    (legible_reads true f _ _) (fun m => units_length d.name m.char) (src.length + 2) st t src ms ⟨hu, hm, hsp⟩ hr
    (by have := hm.length; omega)
  rw [e]
  refine ⟨s', _, text d.name done, todo, rfl, h5, h3, ⟨done, [], by simpa using h1, by simpa using h2, by simp, h4, rfl⟩,
    ends_done h6, ?_, done, h1, h7⟩
  intro hw
  dsimp only at hw
  rcases todo with _ | ⟨m, todo⟩
  · rw [show q.why = _ from h6] at hw; cases hw
  · rcases h6 with ⟨-, h, -⟩ | ⟨-, -, h⟩
    · exact absurd hw h
    · exact h

/-! ## Any two charsets -/

/-- C85: `strf::transcode` between any two charsets to a pointer range: the notifier is told of each ill-formed sequence, with its place
and its size, and of each character that the charset lacks, once or twice; and of nothing else. -/
theorem transcode_notes_partial (S T : CharT) (s d : CharsetArg) (hs : s.name.unitSize = S.size) (hd : d.name.unitSize = T.size)
    (f : Flags) (room : Nat) (src : List Nat) (ms : List Mark) (hu : Units s.name src) (hm : Marks f.lax s.name src ms)
    (hsp : Spared true f s.name d.name ms) :
    ∃ x todo, transcode S T s d f room src = some x ∧ Reached f d.name src ms todo x.out x.stale x.u32dist ∧
      (x.why = .completed ↔ todo = []) ∧ ToldApart d.name src ms todo x.why x.events := by
  cases h : hasSpec s.name d.name with
  | true =>
    obtain ⟨x, before, todo, e, e0, hR, hw, hev⟩ := direct_notes_partial S T s d hs hd ((direct_iff _ _).1 h) f room src ms hu hm hsp
    exact ⟨x, todo, e, hR, hw, Told.apart _ ⟨before, e0, by rw [hev]; exact OnceOrTwice.refl _⟩⟩
  | false =>
    unfold transcode
    rw [find_exact S T s d hs hd, h, if_neg (by simp)]
    dsimp only
    unfold decodeEncode
    rw [decodeEncodePtr_eq]
    have hL : Legible true f s.name d.name src ms := ⟨hu, hm, hsp⟩
    obtain ⟨x, e, done, near, todo, e0, hn, e1, hl, e2, e3, hE, hS⟩ := dePtr_said (to_tells f true s.name d.name)
      (legible_reads true f _ _) (from_encodes_telling f d.name) (fun src ms h => marks_codable (k := true) h |> fun g => g)
      (fun src ms h m hmem hst => bad_supported (fun hb => marks_bad h.2.1 m hmem hb) hst)
      (src.length + 1) room src ms hL (by have := hm.length; omega)
    refine ⟨x, todo, e, ?_, pivotEnds_done hE, ?_⟩
    · rw [e1, e2, e3]
      exact reached_of_pivot (marks_bad hm) e0 hn
    · subst e0
      exact Said.apart (marks_bad hm) hS

/-- C85: to a destination of any kind -/
theorem transcode_dst_notes_partial (L : Lawful D Rep) (S T : CharT) (s d : CharsetArg) (hs : s.name.unitSize = S.size)
    (hd : d.name.unitSize = T.size) (f : Flags) (src : List Nat) (ms : List Mark) (hu : Units s.name src)
    (hm : Marks f.lax s.name src ms) (hsp : Spared true f s.name d.name ms) (st : σ) (t : List Nat) (hr : Rep st t)
    (hg : D.good st = true) :
    ∃ st' q out todo, transcodeDst D S T s d f st src = some (st', q) ∧ Rep st' (t ++ out) ∧ q.count = out.length ∧
      Reached f d.name src ms todo out q.stale q.u32dist ∧ (q.why = .completed ↔ todo = []) ∧
      (q.why = .insufficient → D.good st' = false) ∧ ToldApart d.name src ms todo q.why q.events := by
  cases h : hasSpec s.name d.name with
  | true =>
    obtain ⟨st', q, out, todo, e, h1, h2, h3, h4, h5, h6⟩ := direct_dst_notes_partial L S T s d hs hd ((direct_iff _ _).1 h) f src ms
      hu hm hsp st t hr hg
    exact ⟨st', q, out, todo, e, h1, h2, h3, h4, h5, h6.apart _⟩
  | false =>
    unfold transcodeDst
    rw [find_exact S T s d hs hd, h, if_neg (by simp)]
    dsimp only
    unfold decodeEncodeDst Charset.decodeEncodeTo
    rw [if_neg (by simp [hg])]
    have hL : Legible true f s.name d.name src ms := ⟨hu, hm, hsp⟩
    obtain ⟨s', q, done, near, todo, e, hR, e0, hn, e1, e2, e3, hE, hS⟩ := deLoop_said L (to_tells f true s.name d.name)
      (legible_reads true f _ _) (from_encodes_telling f d.name) (units_length d.name)
      (fun src ms h => marks_codable (k := true) h)
      (fun src ms h m hmem hst => bad_supported (fun hb => marks_bad h.2.1 m hmem hb) hst)
      (src.length + 1) st t src ms hL hr (by have := hm.length; omega)
    refine ⟨s', q, text d.name (done ++ near), todo, e, hR, e1, ?_, pivotEnds_done hE, ?_, ?_⟩
    · rw [e2, e3]
      exact reached_of_pivot (marks_bad hm) e0 hn
    · intro hw
      rcases todo with _ | ⟨m, todo⟩
      · rw [hE.2] at hw; cases hw
      · rcases hE with ⟨-, -, h, -⟩ | ⟨-, -, h⟩ | ⟨-, -, -, h⟩
        · exact absurd hw h
        · rw [hw] at h; cases h
        · exact h
    · subst e0
      exact Said.apart (marks_bad hm) hS

/-- C85: without stop flags, unless the destination fails: the problems of the whole source. -/
theorem transcode_dst_notes_all_partial (L : Lawful D Rep) (S T : CharT) (s d : CharsetArg) (hs : s.name.unitSize = S.size)
    (hd : d.name.unitSize = T.size) (lax : Bool) (src : List Nat) (ms : List Mark) (hu : Units s.name src)
    (hm : Marks lax s.name src ms) (hsp : Spared true ⟨lax, false, false⟩ s.name d.name ms) (st : σ) (t : List Nat) (hr : Rep st t)
    (hg : D.good st = true) :
    ∃ st' q, transcodeDst D S T s d ⟨lax, false, false⟩ st src = some (st', q) ∧
      (D.good st' = true → q.why = .completed ∧
        OnceOrTwice (invalids (notes d.name src.length ms)) (invalids q.events) ∧
        OnceOrTwice (unsupporteds (notes d.name src.length ms)) (unsupporteds q.events)) := by
  obtain ⟨st', q, out, todo, e, h1, h2, h3, h4, h5, before, ahead, e0, h6, -, h7, h8, h9⟩ := transcode_dst_notes_partial L S T s d hs hd
    ⟨lax, false, false⟩ src ms hu hm hsp st t hr hg
  have hC := (transcode_dst_partial L S T s d hs hd ⟨lax, false, false⟩ src ms hu hm (by simpa using hsp.relax) st t hr).2 hg
  obtain ⟨st2, q2, out2, e2, -, -, -, todo2, -, hw2⟩ := hC
  dsimp only at e2
  rw [e] at e2
  injection e2 with e2
  injection e2 with e2 e3
  subst e2 e3
  refine ⟨st', q, e, fun hgood => ?_⟩
  have hw : q.why = .completed := by
    cases hq : q.why with
    | completed => rfl
    | insufficient => rw [h5 hq] at hgood; cases hgood
    | invalid => rw [hq] at hw2; obtain ⟨-, m, t, -, h⟩ := hw2; simp [stopAt] at h
    | unsupported => rw [hq] at hw2; obtain ⟨m, t, -, h⟩ := hw2; simp [stopAt] at h
  have ht := h4.1 hw
  subst ht
  have : ahead = [] := List.prefix_nil.1 h6
  subst this
  simp only [List.append_nil, List.take_nil] at e0 h8 h9
  subst e0
  exact ⟨hw, h8, h9⟩

/-! ## The unsafe functions -/

/-- C85: the unsafe functions, on sources without ill-formed sequences: the notifier is told of the characters that the charset lacks -/
theorem unsafe_transcode_notes_partial (S T : CharT) (s d : CharsetArg) (hs : s.name.unitSize = S.size) (hd : d.name.unitSize = T.size)
    (f : Flags) (room : Nat) (src : List Nat) (ms : List Mark) (hu : Units s.name src) (hm : Marks f.lax s.name src ms)
    (hsp : Spared false f s.name d.name ms) (hw : ∀ m ∈ ms, m.bad = false) :
    ∃ x todo, unsafeTranscode S T s d f room src = some x ∧ Reached f d.name src ms todo x.out x.stale x.u32dist ∧
      (x.why = .completed ↔ todo = []) ∧ ToldApart d.name src ms todo x.why x.events := by
  have hL : Sound f s.name d.name src ms := ⟨⟨hu, hm, hsp⟩, hw⟩
  unfold unsafeTranscode
  rw [find_exact S T s d hs hd]
  cases h : hasSpec s.name d.name with
  | true =>
    rw [if_pos rfl]
    obtain ⟨done, todo, why, e0, hn, hl, e1, hE⟩ := unsafe_tells f s.name d.name h room src ms hL
    dsimp only
    rw [e1]
    exact ⟨_, todo, rfl, ⟨done, [], by simpa using e0, by simpa using hn, by simp [text], rfl, rfl⟩, ends_done hE,
      Told.apart _ ⟨done, e0, OnceOrTwice.refl _⟩⟩
  | false =>
    rw [if_neg (by simp)]
    dsimp only
    unfold unsafeDecodeEncode
    rw [decodeEncodePtr_eq]
    obtain ⟨x, e, done, near, todo, e0, hn, e1, hl, e2, e3, hE, hS⟩ := dePtr_said (to_unsafe_tells f s.name d.name)
      (sound_reads f _ _) (from_encodes_telling f d.name) (fun src ms h => marks_codable h.1)
      (fun src ms h m hmem hst => bad_supported (fun hb => marks_bad h.1.2.1 m hmem hb) hst)
      (src.length + 1) room src ms hL (by have := hm.length; omega)
    refine ⟨x, todo, e, ?_, pivotEnds_done hE, ?_⟩
    · rw [e1, e2, e3]
      exact reached_of_pivot (marks_bad hm) e0 hn
    · subst e0
      exact Said.apart (marks_bad hm) hS

/-! ## Where it is wrong -/

/-- Through UTF-32 an ill-formed sequence is told twice, however much room there is, if it follows 16 characters. -/
theorem notes_twice_wrong :
    (transcode .char .char ⟨.utf .utf8, true⟩ ⟨.sbc 1, true⟩ ⟨false, false, false⟩ 1000 (List.replicate 16 0x61 ++ [0xFF])).map
      (fun x => (x.why, x.events)) = some (.completed, [.invalid 1 1, .invalid 1 1]) := by
  unfold transcode
  rw [find_exact _ _ _ _ rfl rfl]
  decide +kernel

/-- … the problems are not told in order: in "Ā" and a byte that is not UTF-8, to ISO-8859-1, the second one comes first … -/
theorem notes_order_wrong :
    (transcode .char .char ⟨.utf .utf8, true⟩ ⟨.sbc 1, true⟩ ⟨false, false, false⟩ 1000 [0xC4, 0x80, 0xFF]).map
      (fun x => (x.why, x.events)) = some (.completed, [.invalid 1 1, .unsupported 0x100]) ∧
    notes (.sbc 1) 3 [⟨0x100, 2, false⟩, ⟨0xFFFD, 1, true⟩] = [.unsupported 0x100, .invalid 1 1] := by
  unfold transcode
  rw [find_exact _ _ _ _ rfl rfl]
  decide +kernel

/-- … and if the flags ask to stop at characters that are lacking, what follows such a character is told of although the conversion
ended before it. -/
theorem notes_ahead_wrong :
    transcode .char .char ⟨.utf .utf8, true⟩ ⟨.sbc 1, true⟩ ⟨false, false, true⟩ 1000 [0xC4, 0x80, 0xFF] =
      some ⟨[0xC4, 0x80, 0xFF], [], 0, .unsupported, [.invalid 1 1, .unsupported 0x100]⟩ := by
  unfold transcode
  rw [find_exact _ _ _ _ rfl rfl]
  decide +kernel

/-! ## Example -/

/-- the hypotheses, for the source of `notes_order_wrong` and a string -/
example : ∃ st' q, transcodeDst Dest.Maker.dest .char .char ⟨.utf .utf8, true⟩ ⟨.sbc 1, true⟩ ⟨false, false, false⟩
      (Dest.Maker.init (List.replicate 64 0)) [0xC4, 0x80, 0xFF] = some (st', q) ∧
    (Dest.Maker.dest.good st' = true → q.why = .completed ∧
      OnceOrTwice [.invalid 1 1] (invalids q.events) ∧ OnceOrTwice [.unsupported 0x100] (unsupporteds q.events)) := by
  have hm : Marks false (.utf .utf8) [0xC4, 0x80, 0xFF] [⟨0x100, 2, false⟩, ⟨0xFFFD, 1, true⟩] :=
    ⟨[.ch 0x100, .bad 1], by
      have h := Utf.parses_items (e := .utf8) (lax := false) [0xC4, 0x80, 0xFF] (by decide)
      have e : Utf.items .utf8 false [0xC4, 0x80, 0xFF] = [.ch 0x100, .bad 1] := by decide +kernel
      rwa [e] at h, rfl⟩
  have := transcode_dst_notes_all_partial Dest.Maker.lawful .char .char ⟨.utf .utf8, true⟩ ⟨.sbc 1, true⟩ rfl rfl false [0xC4, 0x80, 0xFF] _
    (by unfold Units Utf.Units; decide) hm (.inr (by
      intro m hm
      refine ⟨?_, fun _ h => by cases h⟩
      simp only [List.mem_cons, List.not_mem_nil, or_false] at hm
      rcases hm with rfl | rfl <;> simp [Sbc.Defect]))
    (Dest.Maker.init (List.replicate 64 0)) [] ⟨by simp [Dest.Maker.init], by simp [Dest.Maker.init], rfl, rfl, rfl⟩ rfl
  exact this

end Strf.Transcode

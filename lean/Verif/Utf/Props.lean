import Verif.Utf.SizeLemmas
import Verif.Utf.UnsafeLemmas
import Verif.Utf.CountLemmas
import Verif.Utf.EncodeLemmas
import Verif.Dest.StringsLemmas
/-
C10–C14, C16–C19, C21, C46: the UTF transcoders.
What a sequence of code units means is said in Spec.lean (`Parses`, `WellFormed`, `encode`, `render`, `extent`);
`badNotes` (Outcome.lean) lists the ill-formed items with their positions.
`Flags` has `lax` (surrogate_policy::lax) and `stop` (stop_on_invalid_sequence).
-/
namespace Strf.Utf

/-! ### Facts about the specification used below -/

theorem item_scalar {e : Enc} {lax : Bool} {src : List Nat} {is : List Item} (h : Parses e lax src is) :
    ∀ i ∈ is, Scalar lax i.char := by
  induction h with
  | nil => simp
  | ch hs _ ih =>
    intro i hi
    rcases List.mem_cons.1 hi with rfl | g
    · exact hs.1
    · exact ih _ g
  | bad _ _ _ _ ih =>
    intro i hi
    rcases List.mem_cons.1 hi with rfl | g
    · exact (show Scalar _ 0xFFFD from ⟨by decide, .inr (by decide)⟩)
    · exact ih _ g

theorem render_eq (d : Enc) (is : List Item) : render d is = (is.map Item.char).flatMap (encode d) := by
  unfold render; rw [List.flatMap_map]

theorem render_append (d : Enc) (a b : List Item) : render d (a ++ b) = render d a ++ render d b := by
  unfold render; exact List.flatMap_append

theorem extent_append (e : Enc) (a b : List Item) : extent e (a ++ b) = extent e a + extent e b := by
  induction a with
  | nil => simp [extent]
  | cons i a ih => simp [extent, ih]; omega

theorem extent_parses {e : Enc} {lax : Bool} {src : List Nat} {is : List Item} (h : Parses e lax src is) :
    extent e is = src.length := by
  induction h with
  | nil => rfl
  | @ch src c is hs _ ih =>
    have h1 := hs.2.1.length_le
    simp only [extent, Item.size, ih, List.length_drop]; omega
  | @bad src n is _ _ hm _ ih =>
    have h1 := hm.2.1
    simp only [extent, Item.size, ih, List.length_drop]; omega

theorem badNotes_nil {s : Enc} {len : Nat} {is : List Item} (h : ∀ i ∈ is, i.isBad = false) :
    badNotes s len is = [] := by
  induction is generalizing len with
  | nil => rfl
  | cons i is ih =>
    cases i with
    | ch c => exact ih fun i hi => h i (by simp [hi])
    | bad n => have := h (.bad n) (by simp); cases this

/-- a completed call, from enough room -/
theorem transcode_complete (s d : Enc) (f : Flags) (src : List Nat) (h : Units s src) (room : Nat)
    (hr : (render d (items s f.lax src)).length ≤ room)
    (hs : f.stop = true → ∀ i ∈ items s f.lax src, i.isBad = false) :
    transcode s d f room src = some ⟨[], render d (items s f.lax src), .completed,
      badNotes s src.length (items s f.lax src)⟩ := by
  obtain ⟨r, e, done, todo, h1, h2, h3, h4, h5, h6, h7⟩ := transcode_outcome s d f room src h
  rw [e]
  obtain ⟨rest, out, why, notes⟩ := r
  dsimp only at h2 h3 h4 h6 h7
  have ht : todo = [] ∧ why = .completed := by
    cases why with
    | completed => exact ⟨h7, rfl⟩
    | insufficient =>
      obtain ⟨i, todo', rfl, _, hlt⟩ := h7
      rw [h1, render_append] at hr
      simp only [render, List.flatMap_cons, List.length_append] at hr hlt
      omega
    | invalid =>
      obtain ⟨hst, n, todo', rfl⟩ := h7
      have := hs hst (.bad n) (by rw [h1]; simp)
      cases this
    | unsupported => exact h7.elim
  obtain ⟨rfl, rfl⟩ := ht
  simp only [List.append_nil] at h1
  subst h2 h3 h6
  rw [h1, List.take_nil, List.append_nil]
  have := extent_parses (parses_items (e := s) (lax := f.lax) src h)
  rw [h1] at this
  rw [this, List.drop_length]

/-! ### C10 -/

/-- C10, for all pairs of encodings and both surrogate policies: each source has exactly one reading as characters
and maximal ill-formed subparts (`Parses`); given room, transcode without the stop flag consumes the whole source,
writes the encoding of each character and of U+FFFD for each ill-formed subpart, and notifies each of these. -/
theorem transcode_follows_unicode (s d : Enc) (lax : Bool) (src : List Nat) (h : Units s src) :
    ∃ its, Parses s lax src its ∧ (∀ its', Parses s lax src its' → its' = its) ∧
      ∀ room, (render d its).length ≤ room →
        transcode s d ⟨lax, false⟩ room src = some ⟨[], render d its, .completed, badNotes s src.length its⟩ :=
  ⟨items s lax src, parses_items src h, fun _ h' => parses_unique h' (parses_items src h),
    fun room hr => transcode_complete s d ⟨lax, false⟩ src h room hr (by simp)⟩

/-- C10: decoding of UTF-8 in particular; the output has one code point per item of the reading. -/
theorem utf8_decode_exact (src : List Nat) (h : ∀ b ∈ src, b < 256) :
    ∃ its, Parses .utf8 false src its ∧ ∀ room, its.length ≤ room →
      ∃ notes, transcode .utf8 .utf32 ⟨false, false⟩ room src = some ⟨[], its.map Item.char, .completed, notes⟩ := by
  have hid : ∀ l : List Item, render .utf32 l = l.map Item.char := by
    intro l
    induction l with
    | nil => rfl
    | cons a l ih => rw [List.map_cons, ← ih]; rfl
  refine ⟨items .utf8 false src, parses_items src h, fun room hr =>
    ⟨badNotes .utf8 src.length (items .utf8 false src), ?_⟩⟩
  have := transcode_complete .utf8 .utf32 ⟨false, false⟩ src h room (by rw [hid]; simpa using hr) (by simp)
  rw [this, hid]

example : (∀ b ∈ [0x41, 0xF0, 0x90, 0x80, 0xE2, 0x82, 0xAC, 0xED, 0xA0, 0x80], b < 256) ∧
    transcode .utf8 .utf32 ⟨false, false⟩ 20 [0x41, 0xF0, 0x90, 0x80, 0xE2, 0x82, 0xAC, 0xED, 0xA0, 0x80] =
      some ⟨[], [0x41, 0xFFFD, 0x20AC, 0xFFFD, 0xFFFD, 0xFFFD], .completed, [⟨9, 3⟩, ⟨3, 1⟩, ⟨2, 1⟩, ⟨1, 1⟩]⟩ := by
  decide +kernel

/-! ### C11 -/

/-- C11: whatever the source, the flags and the room, what has been written is well-formed in the destination
encoding (in the strict sense when the surrogate policy is strict). -/
theorem output_well_formed (s d : Enc) (f : Flags) (room : Nat) (src : List Nat) (h : Units s src) :
    ∃ r, transcode s d f room src = some r ∧ WellFormed d f.lax r.out := by
  obtain ⟨r, e, done, todo, h1, h2, _⟩ := transcode_outcome s d f room src h
  refine ⟨r, e, done.map Item.char, ?_, by rw [h2, render_eq]⟩
  intro c hc
  obtain ⟨i, hi, rfl⟩ := List.mem_map.1 hc
  exact item_scalar (parses_items (lax := f.lax) src h) i (by rw [h1]; simp [hi])

/-! ### C12 -/

theorem map_char_ch (cs : List Nat) : (cs.map Item.ch).map Item.char = cs := by
  rw [List.map_map]; exact List.map_id'' (fun _ => rfl) cs

/-- C12: a sequence of scalar values encoded in `s` is transcoded to the same sequence encoded in `d`, nothing is
notified, and transcoding back gives the original (UTF-16 with the strict policy; UTF-8 and UTF-32 with both). -/
theorem lossless (s d : Enc) (f : Flags) (hs : s = .utf16 → f.lax = false) (hd : d = .utf16 → f.lax = false)
    (cs : List Nat) (hc : ∀ c ∈ cs, Scalar f.lax c) (room room' : Nat)
    (hr : (cs.flatMap (encode d)).length ≤ room) (hr' : (cs.flatMap (encode s)).length ≤ room') :
    transcode s d f room (cs.flatMap (encode s)) = some ⟨[], cs.flatMap (encode d), .completed, []⟩ ∧
    transcode d s f room' (cs.flatMap (encode d)) = some ⟨[], cs.flatMap (encode s), .completed, []⟩ := by
  have main : ∀ s d : Enc, (s = .utf16 → f.lax = false) → ∀ room, (cs.flatMap (encode d)).length ≤ room →
      transcode s d f room (cs.flatMap (encode s)) = some ⟨[], cs.flatMap (encode d), .completed, []⟩ := by
    intro s d hs room hr
    have hu : Units s (cs.flatMap (encode s)) := WellFormed.units ⟨cs, hc, rfl⟩
    have hi := parses_unique (parses_items _ hu) (parses_wf hs cs hc)
    have hre : render d (items s f.lax (cs.flatMap (encode s))) = cs.flatMap (encode d) := by
      rw [hi, render_eq, map_char_ch]
    have hb : ∀ i ∈ items s f.lax (cs.flatMap (encode s)), i.isBad = false := by
      rw [hi]; intro i hi; obtain ⟨c, _, rfl⟩ := List.mem_map.1 hi; rfl
    have := transcode_complete s d f _ hu room (by rw [hre]; exact hr) (fun _ => hb)
    rw [this, hre, badNotes_nil hb]
  exact ⟨main s d hs room hr, main d s hd room' hr'⟩

example : (∀ c ∈ [0x41, 0xE9, 0x20AC, 0x1F600, 0x10FFFF], Scalar false c) ∧
    ([0x41, 0xE9, 0x20AC, 0x1F600, 0x10FFFF].flatMap (encode .utf8)).length = 14 := by decide

/-! ### C13 -/

/-- C13: sanitizing twice is sanitizing once, and the second pass notifies nothing; well-formed input comes back
unchanged. -/
theorem sanitize_idempotent (e : Enc) (stop : Bool) (src : List Nat) (h : Units e src) (room : Nat) :
    ∃ r, transcode e e ⟨false, stop⟩ room src = some r ∧
      (∀ room', r.out.length ≤ room' → transcode e e ⟨false, stop⟩ room' r.out = some ⟨[], r.out, .completed, []⟩) ∧
      (WellFormed e false src → src.length ≤ room → r = ⟨[], src, .completed, []⟩) := by
  obtain ⟨r, er, cs, hcs, hout⟩ := output_well_formed e e ⟨false, stop⟩ room src h
  refine ⟨r, er, fun room' hr' => ?_, ?_⟩
  · rw [hout] at hr' ⊢
    exact (lossless e e ⟨false, stop⟩ (fun _ => rfl) (fun _ => rfl) cs hcs room' room' hr' hr').1
  · rintro ⟨ds, hds, rfl⟩ hl
    have := (lossless e e ⟨false, stop⟩ (fun _ => rfl) (fun _ => rfl) ds hds room room hl hl).1
    rw [er] at this
    exact Option.some.inj this

/-! ### C14 -/

/-- C14 (part): transcode_size with a limit gives the number of units, the source position and the reason of the
corresponding transcode call with that much room. Missing: UTF-8 to UTF-8 without the stop flag
(`transcode_size_8to8`, `transcode_size_8to8_wrong`), and UTF-32 to UTF-32 with the stop flag when the unit type is
signed and the source has negative units (`transcode_size_32to32_wrong`). -/
theorem transcode_size_exact_partial (signed : Bool) (s d : Enc) (f : Flags) (limit : Nat) (src : List Nat)
    (h : Units s src) (h88 : s = .utf8 → d = .utf8 → f.stop = true)
    (h33 : s = .utf32 → d = .utf32 → f.stop = true → signed = true → ∀ u ∈ src, u < 0x80000000) :
    ∃ r, transcode s d f limit src = some r ∧ r.out.length ≤ limit ∧
      transcodeSize signed s d f limit src = some ⟨r.out.length, r.rest, r.why⟩ := by
  obtain ⟨r, e, _, _, _, _, _, h4, _⟩ := transcode_outcome s d f limit src h
  refine ⟨r, e, h4, ?_⟩
  rw [transcodeSize_spec h h88 h33, ← transcode_eq_spec s d f limit src h, e]
  simp [sizeOf]

/-- C14, UTF-8 to UTF-8 without the stop flag: with limit `n+1` the result is that of a transcode call with room
`n`; so the size is exact whenever the limit is greater than it, and it never exceeds the limit. -/
theorem transcode_size_8to8 (signed : Bool) (lax : Bool) (n : Nat) (src : List Nat) (h : Units .utf8 src) :
    ∃ r, transcode .utf8 .utf8 ⟨lax, false⟩ n src = some r ∧ r.out.length ≤ n ∧
      transcodeSize signed .utf8 .utf8 ⟨lax, false⟩ (n + 1) src = some ⟨r.out.length, r.rest, r.why⟩ := by
  obtain ⟨r, e, _, _, _, _, _, h4, _⟩ := transcode_outcome .utf8 .utf8 ⟨lax, false⟩ n src h
  refine ⟨r, e, h4, ?_⟩
  rw [transcodeSize88_spec h rfl, ← transcode_eq_spec .utf8 .utf8 ⟨lax, false⟩ n src h, e]
  simp [sizeOf]

/-- C14 as users need it for memory reservation: without the stop flag, for every pair of encodings and every limit
greater than the number of units that the whole transcoding takes, transcode_size gives that number. -/
theorem transcode_size_reserve (signed : Bool) (s d : Enc) (lax : Bool) (src : List Nat) (h : Units s src) :
    ∃ its, Parses s lax src its ∧ ∀ limit, (render d its).length < limit →
      transcodeSize signed s d ⟨lax, false⟩ limit src = some ⟨(render d its).length, [], .completed⟩ := by
  refine ⟨items s lax src, parses_items src h, fun limit hl => ?_⟩
  by_cases h88 : s = .utf8 ∧ d = .utf8
  · obtain ⟨rfl, rfl⟩ := h88
    obtain ⟨n, rfl⟩ : ∃ n, limit = n + 1 := ⟨limit - 1, by omega⟩
    obtain ⟨r, e, _, e2⟩ := transcode_size_8to8 signed lax n src h
    have := transcode_complete .utf8 .utf8 ⟨lax, false⟩ src h n (by dsimp only; omega) (by simp)
    rw [this] at e
    cases e
    exact e2
  · obtain ⟨r, e, _, e2⟩ := transcode_size_exact_partial signed s d ⟨lax, false⟩ limit src h
      (fun a b => absurd ⟨a, b⟩ h88) (by simp)
    have := transcode_complete s d ⟨lax, false⟩ src h limit (by dsimp only; omega) (by simp)
    rw [this] at e
    cases e
    exact e2

/-- C14 fails for UTF-8 to UTF-8 without the stop flag when the limit equals the size: "é" takes 2 units, but with
limit 2 the answer is "0, insufficient output space". -/
theorem transcode_size_8to8_wrong :
    transcode .utf8 .utf8 ⟨false, false⟩ 2 [0xC3, 0xA9] = some ⟨[], [0xC3, 0xA9], .completed, []⟩ ∧
    transcodeSize true .utf8 .utf8 ⟨false, false⟩ 2 [0xC3, 0xA9] = some ⟨0, [0xC3, 0xA9], .insufficient⟩ := by
  decide +kernel

/-- C14 fails for UTF-32 to UTF-32 with the stop flag if the unit type is a signed `wchar_t`: a unit with the high
bit set is counted, whereas transcode stops at it. -/
theorem transcode_size_32to32_wrong :
    transcode .utf32 .utf32 ⟨false, true⟩ 9 [0x80000000] = some ⟨[0x80000000], [], .invalid, [⟨1, 1⟩]⟩ ∧
    transcodeSize true .utf32 .utf32 ⟨false, true⟩ 9 [0x80000000] = some ⟨1, [], .completed⟩ := by
  decide +kernel

example : Units .utf16 [0x41, 0xD83D, 0xDE00, 0xD800] ∧
    transcodeSize true .utf16 .utf8 ⟨false, true⟩ 4 [0x41, 0xD83D, 0xDE00, 0xD800] =
      some ⟨1, [0xD83D, 0xDE00, 0xD800], .insufficient⟩ := by decide +kernel

/-! ### C16 -/

/-- C16: with the stop flag, the call ends in one of three ways. Either the source is well-formed and all of it was
transcoded; or the source position is at the first ill-formed subpart, and exactly what precedes it was transcoded;
or the room was too small for the next character, none of those before being ill-formed. -/
theorem stop_at_first_invalid (s d : Enc) (lax : Bool) (room : Nat) (src : List Nat) (h : Units s src) :
    ∃ r its, transcode s d ⟨lax, true⟩ room src = some r ∧ Parses s lax src its ∧
      match r.why with
      | .completed => WellFormed s lax src ∧ r.rest = [] ∧ r.out = render d its
      | .invalid => ∃ good n more, its = good ++ .bad n :: more ∧ (∀ i ∈ good, i.isBad = false) ∧
          r.out = render d good ∧ r.rest = src.drop (extent s good)
      | .insufficient => ∃ good c more, its = good ++ .ch c :: more ∧ (∀ i ∈ good, i.isBad = false) ∧
          r.out = render d good ∧ r.rest = src.drop (extent s good) ∧
          room < (render d good).length + (encode d c).length
      | .unsupported => False := by
  obtain ⟨r, e, done, todo, h1, h2, h3, h4, h5, h6, h7⟩ := transcode_outcome s d ⟨lax, true⟩ room src h
  refine ⟨r, items s lax src, e, parses_items src h, ?_⟩
  obtain ⟨rest, out, why, notes⟩ := r
  dsimp only at h2 h3 h7 h1 h5 ⊢
  cases why with
  | completed =>
    dsimp only at h7
    subst h7
    rw [List.append_nil] at h1
    refine ⟨AllGood.wellFormed h (by unfold AllGood; rw [h1]; exact h5 rfl), ?_, by rw [h1]; exact h2⟩
    have := extent_parses (parses_items (e := s) (lax := lax) src h)
    rw [h1] at this
    rw [h3, this, List.drop_length]
  | invalid =>
    obtain ⟨_, n, more, rfl⟩ := h7
    exact ⟨done, n, more, h1, h5 rfl, h2, h3⟩
  | insufficient =>
    obtain ⟨i, more, rfl, hb, hlt⟩ := h7
    cases i with
    | ch c => exact ⟨done, c, more, h1, h5 rfl, h2, h3, hlt⟩
    | bad n => exact absurd ⟨rfl, rfl⟩ hb
  | unsupported => exact h7

example : transcode .utf8 .utf16 ⟨false, true⟩ 9 [0x41, 0xC3, 0xA9, 0xE2, 0x82, 0x41] =
    some ⟨[0xE2, 0x82, 0x41], [0x41, 0xE9], .invalid, [⟨3, 2⟩]⟩ := by decide +kernel

/-! ### C17 -/

/-- C17: on well-formed input unsafe_transcode does exactly what transcode does, for every room (every pair of
encodings, both surrogate policies). -/
theorem unsafe_agrees (s d : Enc) (f : Flags) (room : Nat) (src : List Nat) (h : WellFormed s f.lax src) :
    ∃ r, transcode s d f room src = some r ∧ unsafeTranscode s d f room src = some r := by
  obtain ⟨r, e, _⟩ := transcode_outcome s d f room src h.units
  refine ⟨r, e, ?_⟩
  rw [unsafe_spec s d f room src h.units h.allGood, ← transcode_eq_spec s d f room src h.units, e]

/-- C17 for sizes (part): unsafe_transcode_size gives the size, position and reason of transcode with that much
room. Missing: UTF-8 to UTF-32 with a limit smaller than or equal to the size (`unsafe_size_8to32_wrong`). -/
theorem unsafe_size_agrees_partial (s d : Enc) (f : Flags) (limit : Nat) (src : List Nat)
    (h : WellFormed s f.lax src) (hx : ¬ (s = .utf8 ∧ d = .utf32)) :
    ∃ r, transcode s d f limit src = some r ∧
      unsafeTranscodeSize s d f limit src = some ⟨r.out.length, r.rest, r.why⟩ := by
  obtain ⟨r, e, _⟩ := transcode_outcome s d f limit src h.units
  refine ⟨r, e, ?_⟩
  rw [unsafe_size_spec s d f limit src h.units h.allGood hx, ← transcode_eq_spec s d f limit src h.units, e]
  simp [sizeOf]

/-- C17: UTF-8 to UTF-32 when the limit is greater than the number of characters. -/
theorem unsafe_size_8to32 (f : Flags) (limit : Nat) (cs : List Nat) (hc : ∀ c ∈ cs, Scalar f.lax c)
    (hl : cs.length < limit) :
    unsafeTranscodeSize .utf8 .utf32 f limit (cs.flatMap (encode .utf8)) = some ⟨cs.length, [], .completed⟩ := by
  have hw : WellFormed .utf8 f.lax (cs.flatMap (encode .utf8)) := ⟨cs, hc, rfl⟩
  have hi := parses_unique (parses_items _ hw.units) (parses_wf (lax := f.lax) (e := .utf8) (by simp) cs hc)
  have hn := countNonCont_eq (lax := f.lax) _ hw.units hw.allGood
  rw [hi, List.length_map] at hn
  show usize8to32 limit _ = _
  unfold usize8to32
  split_ifs with c
  · rw [hn]
  · rw [usize8to32Loop_small _ (by omega), hn]; simp

/-- C17 fails for the UTF-8 to UTF-32 size with a small limit: the position returned for "éa" with limit 1 is in
the middle of "é". -/
theorem unsafe_size_8to32_wrong :
    transcode .utf8 .utf32 ⟨false, false⟩ 1 [0xC3, 0xA9, 0x61] = some ⟨[0x61], [0xE9], .insufficient, []⟩ ∧
    unsafeTranscodeSize .utf8 .utf32 ⟨false, false⟩ 1 [0xC3, 0xA9, 0x61] = some ⟨1, [0xA9, 0x61], .insufficient⟩ := by
  decide +kernel

example : WellFormed .utf8 false [0xC3, 0xA9, 0xF0, 0x9F, 0x98, 0x80] ∧
    unsafeTranscode .utf8 .utf16 ⟨false, false⟩ 2 [0xC3, 0xA9, 0xF0, 0x9F, 0x98, 0x80] =
      some ⟨[0xF0, 0x9F, 0x98, 0x80], [0xE9], .insufficient, []⟩ :=
  ⟨⟨[0xE9, 0x1F600], by decide, by decide⟩, by decide +kernel⟩

/-! ### C18 -/

/-- C18: count_codepoints counts the characters and ill-formed subparts, capped by the limit, and returns the
position after the last one counted. In terms of transcoding: the count is min(limit, n), where `n` is the number
of code points that the whole source gives in UTF-32; and the position is where transcoding to UTF-32 with room for
`limit` code points stops. -/
theorem count_codepoints_exact (e : Enc) (limit : Nat) (src : List Nat) (h : Units e src) :
    ∃ its all part, Parses e false src its ∧
      (∀ room, its.length ≤ room → transcode e .utf32 ⟨false, false⟩ room src = some all) ∧
      transcode e .utf32 ⟨false, false⟩ limit src = some part ∧
      countCodepoints e limit src = some (min limit its.length, src.drop (extent e (its.take limit))) ∧
      all.out.length = its.length ∧ part.out.length = min limit its.length ∧
      part.rest = src.drop (extent e (its.take limit)) := by
  have hlen : ∀ l : List Item, (render .utf32 l).length = l.length := by
    intro l
    induction l with
    | nil => rfl
    | cons a l ih => simp only [render, List.flatMap_cons, List.length_append, List.length_cons] at ih ⊢; rw [ih]; simp [encode]; omega
  obtain ⟨r, er, done, todo, h1, h2, h3, h4, h5, h6, h7⟩ := transcode_outcome e .utf32 ⟨false, false⟩ limit src h
  refine ⟨items e false src, _, r, parses_items src h,
    fun room hr => transcode_complete e .utf32 ⟨false, false⟩ src h room (by rw [hlen]; exact hr) (by simp), er,
    countCodepoints_eq e limit src h, hlen _, ?_⟩
  have hd : r.out.length = done.length := by rw [h2, hlen]
  have key : done = (items e false src).take limit := by
    dsimp only at h1
    rw [h1]
    obtain ⟨rest, out, why, notes⟩ := r
    dsimp only at *
    cases why with
    | completed =>
      dsimp only at h7; subst h7
      rw [List.append_nil, List.take_of_length_le (by omega)]
    | insufficient =>
      obtain ⟨i, todo', rfl, _, hlt⟩ := h7
      rw [hlen] at hlt
      simp only [encode, List.length_singleton] at hlt
      rw [List.take_left' (by omega)]
    | invalid => obtain ⟨hst, _⟩ := h7; cases hst
    | unsupported => exact h7.elim
  refine ⟨?_, by rw [h3, key]⟩
  rw [hd, key, List.length_take]

/-- C18: on well-formed text count_codepoints_fast gives the same answer. -/
theorem count_codepoints_fast_agrees (e : Enc) (limit : Nat) (src : List Nat) (h : WellFormed e false src) :
    countCodepointsFast e limit src = countCodepoints e limit src := by
  have hu := h.units
  obtain ⟨cs, hc, rfl⟩ := h
  have hi := parses_unique (parses_items _ hu) (parses_wf (lax := false) (e := e) (fun _ => rfl) cs hc)
  rw [countFast_eq e limit cs hc, countCodepoints_eq e limit _ hu, hi, drop_flatMap, List.length_map]

example : countCodepoints .utf8 3 [0x41, 0xE2, 0x82, 0xC3, 0xA9, 0x42] = some (3, [0x42]) ∧
    countCodepointsFast .utf16 1 [0xD83D, 0xDE00, 0x41] = some (1, [0x41]) := by decide +kernel

/-! ### C19 -/

/-- C19: for every Unicode scalar value, in each encoding: encode_char stores the encoding of Unicode, this has
encoded_char_size units, validate says the same, and decoding it gives the scalar back, consuming just it. -/
theorem encode_char_exact (e : Enc) (c : Nat) (h : Scalar false c) :
    encodeChar e c = encode e c ∧ (encodeChar e c).length = encodedCharSize e c ∧
    validate e c = encodedCharSize e c ∧
    ∀ room, 1 ≤ room → transcode e .utf32 ⟨false, true⟩ room (encodeChar e c) = some ⟨[], [c], .completed, []⟩ := by
  have hlt := scalar_lt h
  have hs : isSurrogate c = false := by
    rcases h.2 with g | g
    · cases g
    · rw [← isSurrogate_iff] at g; simpa using g
  refine ⟨encodeChar_eq hlt, encodeChar_length e c, ?_, ?_⟩
  · cases e
    · simp only [validate, encodedCharSize, hs]; split_ifs <;> first | rfl | simp_all
    · simp only [validate, encodedCharSize, hs]; split_ifs <;> first | rfl | omega | simp_all
    · simp [validate, encodedCharSize, hs, hlt]
  · intro room hr
    rw [encodeChar_eq hlt]
    have := (lossless e .utf32 ⟨false, true⟩ (fun _ => rfl) (fun _ => rfl) [c] (by simpa using h) room
      (encode e c).length (by simpa [encode] using hr) (by simp)).1
    simpa [encode] using this

/-- C19: for the other `char32_t` values validate is negative. encode_char of a value above 10FFFF stores U+FFFD in
UTF-8 and UTF-16; and always as many units as encoded_char_size says. -/
theorem encode_char_invalid (e : Enc) (c : Nat) (h : ¬ Scalar false c) :
    validate e c = -1 ∧ (encodeChar e c).length = encodedCharSize e c ∧
    (0x10FFFF < c → e ≠ .utf32 → encodeChar e c = encode e 0xFFFD) := by
  have hs : isSurrogate c = true ∨ 0x110000 ≤ c := by
    by_cases g : IsSurr c
    · exact .inl ((isSurrogate_iff c).2 g)
    · right
      by_contra hh
      exact h ⟨by omega, .inr g⟩
  refine ⟨?_, encodeChar_length e c, fun hb he => encodeChar_big (by omega) he⟩
  have hn : isSurrogate c = true → 0xD800 ≤ c := fun g => ((isSurrogate_iff c).1 g).1
  rcases hs with g | g
  · have := hn g
    cases e
    · simp only [validate, g]; rw [if_neg (by omega), if_neg (by omega), if_pos trivial]
    · simp [validate, g]
    · simp [validate, g]
  · have g2 : ¬ isSurrogate c = true := fun g3 => by have := ((isSurrogate_iff c).1 g3).2; omega
    cases e
    · simp only [validate]
      rw [if_neg (by omega), if_neg (by omega), if_neg g2, if_neg (by omega), if_neg (by omega)]
    · simp only [validate]
      rw [if_neg g2, if_neg (by omega), if_neg (by omega)]
    · simp [validate, g2, show ¬ c < 0x110000 by omega]

/-- C19, the single-unit decoder: with unsigned units it gives the character, or U+FFFD for a UTF-8 unit that is not a
whole character. -/
theorem decode_unit_utf8 (u : Nat) (h : u < 256) :
    decodeUnit false .utf8 u = if encode .utf8 u = [u] then u else 0xFFFD := by
  simp only [decodeUnit, encode]
  by_cases h1 : u < 0x80
  · simp [h1]
  · have : u < 0x800 := by omega
    simp [h1, this]

/-- C19 fails for decode_unit if the unit type is a signed `char`: a unit such as 0xE9 is not mapped to U+FFFD, but
to the value 0xFFFFFFE9, which is not a code point. -/
theorem decode_unit_signed_wrong (u : Nat) (h : 0x80 ≤ u) (h' : u < 256) :
    decodeUnit true .utf8 u ≠ 0xFFFD ∧ 0x10FFFF < decodeUnit true .utf8 u := by
  simp [decodeUnit, h]; omega

example : decodeUnit true .utf8 0xE9 = 0xFFFFFFE9 ∧ decodeUnit false .utf8 0xE9 = 0xFFFD := by decide

/-! ### C21 -/

/-- C21: with the lax policy every sequence of 16-bit units, including unpaired surrogates, goes to (generalized) UTF-8
or to UTF-32 and back without change, nothing being notified. -/
theorem lax_utf16_roundtrip (d : Enc) (hd : d ≠ .utf16) (stop : Bool) (src : List Nat) (h : Units .utf16 src) :
    ∃ out, (∀ room, out.length ≤ room → transcode .utf16 d ⟨true, stop⟩ room src = some ⟨[], out, .completed, []⟩) ∧
      ∀ room, src.length ≤ room → transcode d .utf16 ⟨true, stop⟩ room out = some ⟨[], src, .completed, []⟩ := by
  have hg := allGood_lax16 src
  have hp := parses_items (lax := true) src h
  have hsc := item_scalar hp
  obtain ⟨cs, hcs⟩ : ∃ cs : List Nat, items .utf16 true src = cs.map Item.ch := by
    unfold AllGood at hg
    revert hg
    generalize items .utf16 true src = is
    intro hg
    induction is with
    | nil => exact ⟨[], rfl⟩
    | cons i is ih =>
      obtain ⟨cs, rfl⟩ := ih fun i hi => hg i (by simp [hi])
      cases i with
      | ch c => exact ⟨c :: cs, rfl⟩
      | bad n => have := hg (.bad n) (by simp); cases this
  have hsc' : ∀ c ∈ cs, Scalar true c := by
    intro c hc; exact hsc (.ch c) (by rw [hcs]; exact List.mem_map.2 ⟨c, hc, rfl⟩)
  have hsrc : src = cs.flatMap (encode .utf16) := by
    rw [hcs] at hp
    clear hcs hsc hg h
    induction cs generalizing src with
    | nil => cases hp; rfl
    | cons c cs ih =>
      rw [List.map_cons] at hp
      cases hp with
      | ch hs hp =>
        have := ih _ hp (fun c hc => hsc' c (by simp [hc]))
        obtain ⟨rest, hr⟩ := hs.2.1
        rw [← hr, List.drop_left] at this
        rw [List.flatMap_cons, ← this, hr]
  have hb : ∀ i ∈ cs.map Item.ch, i.isBad = false := by
    intro i hi; obtain ⟨c, _, rfl⟩ := List.mem_map.1 hi; rfl
  refine ⟨cs.flatMap (encode d), fun room hr => ?_, fun room hr => ?_⟩
  · have := transcode_complete .utf16 d ⟨true, stop⟩ src h room
      (by dsimp only; rw [hcs, render_eq, map_char_ch]; exact hr) (fun _ => hg)
    dsimp only at this
    rw [this, hcs, render_eq, map_char_ch, badNotes_nil hb]
  · have hu : Units d (cs.flatMap (encode d)) := WellFormed.units ⟨cs, hsc', rfl⟩
    have hi := parses_unique (parses_items _ hu) (parses_wf (lax := true) (e := d) (fun g => absurd g hd) cs hsc')
    have := transcode_complete d .utf16 ⟨true, stop⟩ _ hu room
      (by dsimp only; rw [hi, render_eq, map_char_ch, ← hsrc]; exact hr) (by dsimp only; rw [hi]; exact fun _ => hb)
    dsimp only at this
    rw [this, hi, render_eq, map_char_ch, ← hsrc, badNotes_nil hb]

/-- C21: and code points including surrogates go from UTF-32 to UTF-8 and back. -/
theorem lax_utf32_utf8_roundtrip (stop : Bool) (src : List Nat) (h : ∀ c ∈ src, c ≤ 0x10FFFF) :
    ∃ out, (∀ room, out.length ≤ room → transcode .utf32 .utf8 ⟨true, stop⟩ room src = some ⟨[], out, .completed, []⟩) ∧
      ∀ room, src.length ≤ room → transcode .utf8 .utf32 ⟨true, stop⟩ room out = some ⟨[], src, .completed, []⟩ := by
  have hid : src.flatMap (encode .utf32) = src := by
    clear h
    induction src with
    | nil => rfl
    | cons a l ih => rw [List.flatMap_cons, ih]; rfl
  have hc : ∀ c ∈ src, Scalar true c := fun c hc => ⟨h c hc, .inl rfl⟩
  refine ⟨src.flatMap (encode .utf8), fun room hr => ?_, fun room hr => ?_⟩
  · have := (lossless .utf32 .utf8 ⟨true, stop⟩ (by simp) (by simp) src hc room src.length hr (by rw [hid])).1
    rwa [hid] at this
  · have := (lossless .utf32 .utf8 ⟨true, stop⟩ (by simp) (by simp) src hc _ room le_rfl (by rw [hid]; exact hr)).2
    rwa [hid] at this

example : Units .utf16 [0xDC00, 0xD800, 0x41, 0xD83D, 0xDE00, 0xD800] ∧
    transcode .utf16 .utf8 ⟨true, false⟩ 20 [0xDC00, 0xD800, 0x41] =
      some ⟨[], [0xED, 0xB0, 0x80, 0xED, 0xA0, 0x80, 0x41], .completed, []⟩ := by decide +kernel

/-! ### C46 -/

/-- C46: on every destination that keeps the contract, from every state, encode_fill appends `max(count, 0)` copies
of what encode_char gives, without undefined behaviour. -/
theorem encode_fill_exact {σ : Type} {D : Dest.Dest Nat σ} {Rep : σ → List Nat → Prop} (L : Dest.Lawful D Rep)
    (e : Enc) (s : σ) (t : List Nat) (h : Rep s t) (count : Int) (ch : Nat) :
    ∃ s', encodeFill D s count ch e = some s' ∧ Rep s' (t ++ (List.replicate count.toNat (encodeChar e ch)).flatten) := by
  obtain ⟨s', h1, h2, _⟩ := encodeFill_prints (τ := true) L e count ch s t h
  exact ⟨s', h1, h2⟩

/-- C46: for a string_maker that has been given the text `t` before, in particular. -/
theorem encode_fill_string_maker (e : Enc) (junk : List Nat) (hj : junk.length = 64) (ops : List (Dest.Op Nat))
    (hok : ∀ op ∈ ops, op.Ok) (count : Int) (ch : Nat) (hc : Scalar false ch) :
    ∃ s s', Dest.runOps Dest.Maker.dest (Dest.Maker.init junk) ops = some s ∧
      encodeFill Dest.Maker.dest s count ch e = some s' ∧
      (Dest.Maker.finishE true s').2 =
        some (Dest.textOf ops ++ (List.replicate count.toNat (encode e ch)).flatten) := by
  obtain ⟨s, e1, r, _⟩ := Dest.Maker.lawfulAll.prints_ops ops hok (Dest.Maker.init junk) []
    ⟨hj, by simp [Dest.Maker.init], rfl, rfl, rfl⟩
  obtain ⟨s', e2, r2, _⟩ := encodeFill_prints (τ := true) Dest.Maker.lawful e count ch s _ r
  refine ⟨s, s', e1, e2, ?_⟩
  rw [encodeChar_eq (scalar_lt hc), List.nil_append] at r2
  obtain ⟨_, _, hg, hi, ht⟩ := r2
  simp only [Dest.Maker.finishE, hg, if_true]
  cases hs : s'.str with
  | none => rw [hs] at hi ht; simp at hi; simp [hi]; simpa using ht
  | some x => rw [hs] at hi ht; simp at hi; simp [hi]; simpa using ht

example : Scalar false 0x1F600 ∧ (List.replicate (100 : Int).toNat (encode .utf8 0x1F600)).flatten.length = 400 := by
  decide +kernel

end Strf.Utf

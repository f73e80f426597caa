import Verif.Transcode.Props
/-! # C76, C77: transcode, decode_encode and their variants, for any two charsets -/
namespace Strf.Transcode
open Strf.Format (CsName CharT CharsetArg)
open Strf.Utf (Reason)
open Strf.Sbc (Flags)
open Strf.Charset (Func SizeFunc DERes DEPtr)
open Strf.Dest (Dest Lawful)

variable {σ : Type} {D : Dest Nat σ} {Rep : σ → List Nat → Prop}

/-! ## Through UTF-32 -/

/-- C76: decode_encode between any two charsets, to any room, with any flags: it writes the text of the first characters, as many as
fit or come before the first that the flags ask to stop at; it says why it ended; and the place is that given by stale_src_ptr
and u32dist. `decode_encode_size` gives the same size, position and reason. -/
theorem decode_encode_partial (s d : CsName) (f : Flags) (room : Nat) (src : List Nat) (ms : List Mark) (hu : Units s src)
    (hm : Marks f.lax s src ms) (hd : Spared false f s d ms) :
    ∃ x, decodeEncode s d f room src = some x ∧
      decodeEncodeSize s d f room src = some ⟨x.out.length, x.stale, x.u32dist, x.why, []⟩ ∧
      ConvertsIn f d src ms room x.out x.stale x.u32dist x.why := by
  obtain ⟨x, e, e2, h⟩ := ptr_of_pivot (to_works false f s d) (legible_reads false f s d) (fun _ _ h => h) ⟨hu, hm, hd⟩
    (P := 16) (by omega) room
  exact ⟨x, by unfold decodeEncode; rw [decodeEncodePtr_eq]; exact e, e2, h⟩

/-- C76: to a destination of any kind -/
theorem decode_encode_dst_partial (L : Lawful D Rep) (s d : CsName) (f : Flags) (src : List Nat) (ms : List Mark) (hu : Units s src)
    (hm : Marks f.lax s src ms) (hd : Spared false f s d ms) :
    ConvertsTo D Rep f d src ms fun st => decodeEncodeDst D s d f st src :=
  dst_of_pivot L (to_works false f s d) (legible_reads false f s d) (fun _ _ h => h) ⟨hu, hm, hd⟩

/-- C77: the unsafe versions, on sources without ill-formed sequences -/
theorem unsafe_decode_encode_partial (s d : CsName) (f : Flags) (room : Nat) (src : List Nat) (ms : List Mark) (hu : Units s src)
    (hm : Marks f.lax s src ms) (hd : Spared false f s d ms) (hw : ∀ m ∈ ms, m.bad = false) :
    ∃ x, unsafeDecodeEncode s d f room src = some x ∧ ConvertsIn f d src ms room x.out x.stale x.u32dist x.why := by
  obtain ⟨x, e, -, h⟩ := ptr_of_pivot (to_unsafe_works f s d) (sound_reads f s d) (fun _ _ h => h.1) ⟨⟨hu, hm, hd⟩, hw⟩
    (P := 16) (by omega) room
  exact ⟨x, by unfold unsafeDecodeEncode; rw [decodeEncodePtr_eq]; exact e, h⟩

/-- C77: the pivot buffer of unsafe_decode_encode_size is larger, so stale_src_ptr may differ; what it says does not. -/
theorem unsafe_decode_encode_size_partial (s d : CsName) (f : Flags) (limit : Nat) (src : List Nat) (ms : List Mark)
    (hu : Units s src) (hm : Marks f.lax s src ms) (hd : Spared false f s d ms) (hw : ∀ m ∈ ms, m.bad = false) :
    ∃ q out, unsafeDecodeEncodeSize s d f limit src = some q ∧ q.count = out.length ∧
      ConvertsIn f d src ms limit out q.stale q.u32dist q.why := by
  obtain ⟨x, e, e2, h⟩ := ptr_of_pivot (to_unsafe_works f s d) (sound_reads f s d) (fun _ _ h => h.1) ⟨⟨hu, hm, hd⟩, hw⟩
    (P := 32) (by omega) limit
  exact ⟨_, x.out, e2, rfl, h⟩

/-! ## With the transcoder found -/

/-- C76: `strf::transcode` between any two charsets (each static or dynamic, over any character types), to any room, with any
flags: it compiles; it writes the text of the first characters, as many as fit or come before the first that the flags ask to
stop at, ill-formed sequences as U+FFFD and characters that the charset lacks as '?'; it says why it ended, and where. -/
theorem transcode_partial (S T : CharT) (s d : CharsetArg) (hs : s.name.unitSize = S.size) (hd : d.name.unitSize = T.size)
    (f : Flags) (room : Nat) (src : List Nat) (ms : List Mark) (hu : Units s.name src) (hm : Marks f.lax s.name src ms)
    (hsp : Spared (f.stop || f.stopUnsup) f s.name d.name ms) :
    ∃ x, transcode S T s d f room src = some x ∧ ConvertsIn f d.name src ms room x.out x.stale x.u32dist x.why := by
  unfold transcode
  rw [find_exact S T s d hs hd]
  cases h : hasSpec s.name d.name with
  | true =>
    rw [if_pos rfl]
    obtain ⟨r, e, hC⟩ := ptr_of_works (tr_works _ f (by simp) s.name d.name h) ⟨hu, hm, hsp⟩ room
    dsimp only
    rw [e]
    exact ⟨_, rfl, hC⟩
  | false =>
    rw [if_neg (by simp)]
    obtain ⟨x, e, -, hC⟩ := decode_encode_partial s.name d.name f room src ms hu hm hsp.relax
    exact ⟨x, e, hC⟩

/-- C76: to a destination of any kind -/
theorem transcode_dst_partial (L : Lawful D Rep) (S T : CharT) (s d : CharsetArg) (hs : s.name.unitSize = S.size)
    (hd : d.name.unitSize = T.size) (f : Flags) (src : List Nat) (ms : List Mark) (hu : Units s.name src)
    (hm : Marks f.lax s.name src ms) (hsp : Spared (f.stop || f.stopUnsup) f s.name d.name ms) :
    ConvertsTo D Rep f d.name src ms fun st => transcodeDst D S T s d f st src := by
  unfold transcodeDst
  rw [find_exact S T s d hs hd]
  cases h : hasSpec s.name d.name with
  | true =>
    rw [if_pos rfl]
    exact dst_of_works L (tr_works _ f (by simp) s.name d.name h) (legible_reads _ f _ _) ⟨hu, hm, hsp⟩
  | false =>
    rw [if_neg (by simp)]
    exact decode_encode_dst_partial L s.name d.name f src ms hu hm hsp.relax

/-- C77: `unsafe_transcode` does the same on sources without ill-formed sequences, and does not need the classification -/
theorem unsafe_transcode_partial (S T : CharT) (s d : CharsetArg) (hs : s.name.unitSize = S.size) (hd : d.name.unitSize = T.size)
    (f : Flags) (room : Nat) (src : List Nat) (ms : List Mark) (hu : Units s.name src) (hm : Marks f.lax s.name src ms)
    (hsp : Spared false f s.name d.name ms) (hw : ∀ m ∈ ms, m.bad = false) :
    ∃ x, unsafeTranscode S T s d f room src = some x ∧ ConvertsIn f d.name src ms room x.out x.stale x.u32dist x.why := by
  unfold unsafeTranscode
  rw [find_exact S T s d hs hd]
  cases h : hasSpec s.name d.name with
  | true =>
    rw [if_pos rfl]
    obtain ⟨r, e, hC⟩ := ptr_of_works (unsafe_works f s.name d.name h) ⟨⟨hu, hm, hsp⟩, hw⟩ room
    dsimp only
    rw [e]
    exact ⟨_, rfl, hC⟩
  | false =>
    rw [if_neg (by simp)]
    exact unsafe_decode_encode_partial s.name d.name f room src ms hu hm hsp hw

theorem unsafe_transcode_dst_partial (L : Lawful D Rep) (S T : CharT) (s d : CharsetArg) (hs : s.name.unitSize = S.size)
    (hd : d.name.unitSize = T.size) (f : Flags) (src : List Nat) (ms : List Mark) (hu : Units s.name src)
    (hm : Marks f.lax s.name src ms) (hsp : Spared false f s.name d.name ms) (hw : ∀ m ∈ ms, m.bad = false) :
    ConvertsTo D Rep f d.name src ms fun st => unsafeTranscodeDst D S T s d f st src := by
  unfold unsafeTranscodeDst
  rw [find_exact S T s d hs hd]
  cases h : hasSpec s.name d.name with
  | true =>
    rw [if_pos rfl]
    exact dst_of_works L (unsafe_works f s.name d.name h) (sound_reads f _ _) ⟨⟨hu, hm, hsp⟩, hw⟩
  | false =>
    rw [if_neg (by simp)]
    exact dst_of_pivot L (to_unsafe_works f s.name d.name) (sound_reads f _ _) (fun _ _ h => h.1) ⟨⟨hu, hm, hsp⟩, hw⟩

/-- The safe and the unsafe function write the same and end for the same reason. -/
theorem unsafe_same_partial (S T : CharT) (s d : CharsetArg) (hs : s.name.unitSize = S.size) (hd : d.name.unitSize = T.size)
    (f : Flags) (room : Nat) (src : List Nat) (ms : List Mark) (hu : Units s.name src) (hm : Marks f.lax s.name src ms)
    (hsp : Spared (f.stop || f.stopUnsup) f s.name d.name ms) (hw : ∀ m ∈ ms, m.bad = false) :
    ∃ x y, transcode S T s d f room src = some x ∧ unsafeTranscode S T s d f room src = some y ∧ x.out = y.out ∧ x.why = y.why := by
  obtain ⟨x, e, h⟩ := transcode_partial S T s d hs hd f room src ms hu hm hsp
  obtain ⟨y, e', h'⟩ := unsafe_transcode_partial S T s d hs hd f room src ms hu hm hsp.relax hw
  exact ⟨x, y, e, e', converts_unique h h'⟩

/-! ## Sizes -/

/-- the cases in which the size functions are right: all but UTF-8 to UTF-8 without the stop flag (`Utf.transcode_size_8to8_wrong`),
UTF-32 to UTF-32 with it over a signed type (`Utf.transcode_size_32to32_wrong`), and UTF-32 to a single-byte charset with a stop
flag (`Sbc.size_fffd_wrong`, `Sbc.size_unsupported_wrong`) -/
def SizeSpared (signed : Bool) (f : Flags) : CsName → CsName → List Nat → Prop
  | .utf .utf8, .utf .utf8, _ => f.stop = true
  | .utf .utf32, .utf .utf32, src => f.stop = true → signed = true → ∀ u ∈ src, u < 0x80000000
  | .utf .utf32, .sbc _, src => (f.stop = true → f.lax = false → 0xFFFD ∉ src) ∧
      (f.stopUnsup = true → f.stop = false → (f.lax = false → 0xD800 ∉ src ∧ 0xFFFF ∉ src) ∧ (f.lax = true → 0x110000 ∉ src))
  | _, _, _ => True

theorem tr_size (signed : Bool) (f : Flags) (s d : CsName) (h : hasSpec s d = true) (limit : Nat) (src : List Nat)
    (hu : Units s src) (hsz : SizeSpared signed f s d src) :
    Tr.size ⟨s, d⟩ signed f limit src = (Tr.func ⟨s, d⟩ f limit src).map fun r => ⟨r.out.length, r.rest, r.why⟩ := by
  cases s with
  | utf s =>
    cases d with
    | utf d =>
      obtain ⟨r, e, -, e2⟩ := Utf.transcode_size_exact_partial signed s d (utfFlags f) limit src hu
        (by rintro rfl rfl; exact hsz) (by rintro rfl rfl; exact hsz)
      show Utf.transcodeSize signed s d (utfFlags f) limit src = Option.map _ (Charset.utfFunc s d (utfFlags f) limit src)
      unfold Charset.utfFunc
      rw [e, e2]
      rfl
    | sbc j =>
      have : s = .utf32 := by simpa [hasSpec] using h
      subst this
      exact Sbc.from_u32_size_partial _ (sbcOf_mem j) f limit src hsz.1 hsz.2
  | sbc i =>
    cases d with
    | utf d => exact (Sbc.to_u32_size_exact _ (sbcOf_mem i) f limit src hu).1
    | sbc j => exact (Sbc.to_u32_size_exact _ (sbcOf_mem i) f limit src hu).2

/-- C77 (part): transcode_size with a limit gives the size, the place and the reason of transcode with that much room -/
theorem transcode_size_partial (S T : CharT) (signed : Bool) (s d : CharsetArg) (hs : s.name.unitSize = S.size)
    (hd : d.name.unitSize = T.size) (f : Flags) (limit : Nat) (src : List Nat) (ms : List Mark) (hu : Units s.name src)
    (hm : Marks f.lax s.name src ms) (hsp : Spared (f.stop || f.stopUnsup) f s.name d.name ms)
    (hsz : SizeSpared signed f s.name d.name src) :
    ∃ x, transcode S T s d f limit src = some x ∧
      transcodeSize S T signed s d f limit src = some ⟨x.out.length, x.stale, x.u32dist, x.why, []⟩ := by
  unfold transcode transcodeSize
  rw [find_exact S T s d hs hd]
  cases h : hasSpec s.name d.name with
  | true =>
    rw [if_pos rfl]
    obtain ⟨r, e, -⟩ := ptr_of_works (tr_works _ f (by simp) s.name d.name h) ⟨hu, hm, hsp⟩ limit
    dsimp only
    rw [tr_size signed f s.name d.name h limit src hu hsz, e]
    exact ⟨_, rfl, rfl⟩
  | false =>
    rw [if_neg (by simp)]
    obtain ⟨x, e, e2, -⟩ := decode_encode_partial s.name d.name f limit src ms hu hm hsp.relax
    exact ⟨x, e, e2⟩

/-- with enough room and nothing to stop at everything is converted -/
theorem converts_all {f : Flags} {d : CsName} {src : List Nat} {ms : List Mark} {room : Nat} {out stale : List Nat}
    {n : Nat} {why : Reason} (h : ConvertsIn f d src ms room out stale n why) (hr : (text d ms).length ≤ room)
    (hn : ∀ m ∈ ms, stopAt f d m = none) : out = text d ms ∧ stale = src.drop (extent ms) ∧ n = 0 ∧ why = .completed := by
  obtain ⟨-, todo, ⟨done, near, e, -, rfl, rfl, rfl⟩, hw⟩ := h
  cases why with
  | completed =>
    obtain ⟨h1, rfl⟩ := hw
    have : near = [] := List.length_eq_zero_iff.1 h1
    subst this
    simp only [List.append_nil] at e
    subst e
    simp
  | invalid => obtain ⟨-, m, t, rfl, h⟩ := hw; rw [hn m (by rw [e]; simp)] at h; cases h
  | unsupported => obtain ⟨m, t, rfl, h⟩ := hw; rw [hn m (by rw [e]; simp)] at h; cases h
  | insufficient =>
    obtain ⟨m, t, rfl, -, h⟩ := hw
    rw [e] at hr
    unfold text at hr h
    simp only [List.flatMap_append, List.flatMap_cons, List.length_append] at hr h
    omega

theorem marks_extent {lax : Bool} {s : CsName} {src : List Nat} {ms : List Mark} (h : Marks lax s src ms) :
    src.drop (extent ms) = [] := by
  cases s with
  | utf e =>
    obtain ⟨its, hp, rfl⟩ := h
    rw [extent_map, Utf.extent_parses hp, List.drop_length]
  | sbc i =>
    rw [show ms = src.map (byteMark (sbcOf i)) from h, extent_ones (byteMark_size _), List.drop_length]

/-- C77: as needed for the reservation of memory: without stop flags, and for every limit above it, transcode_size gives the
length of the text, for any two charsets -/
theorem transcode_size_reserve_partial (S T : CharT) (signed : Bool) (s d : CharsetArg) (hs : s.name.unitSize = S.size)
    (hd : d.name.unitSize = T.size) (lax : Bool) (src : List Nat) (ms : List Mark) (hu : Units s.name src)
    (hm : Marks lax s.name src ms) (hsp : Spared false ⟨lax, false, false⟩ s.name d.name ms) (limit : Nat)
    (hl : (text d.name ms).length < limit) :
    transcodeSize S T signed s d ⟨lax, false, false⟩ limit src = some ⟨(text d.name ms).length, [], 0, .completed, []⟩ := by
  by_cases h88 : s.name = .utf .utf8 ∧ d.name = .utf .utf8
  · unfold transcodeSize
    rw [find_exact S T s d hs hd]
    obtain ⟨h1, h2⟩ := h88
    rw [h1] at hu hm ⊢
    rw [h2] at hl ⊢
    obtain ⟨its, hp, rfl⟩ := hm
    obtain ⟨its', hp', h⟩ := Utf.transcode_size_reserve signed .utf8 .utf8 lax src hu
    have : its' = its := Utf.parses_unique hp' hp
    subst this
    have ht : text (.utf .utf8) (its'.map fun i => ⟨i.char, i.size .utf8, i.isBad⟩) = Utf.render .utf8 its' := by
      unfold text; rw [flatMap_map]; rfl
    rw [ht] at hl ⊢
    show (Utf.transcodeSize signed .utf8 .utf8 ⟨lax, false⟩ limit src).map _ = _
    rw [h limit hl]
    rfl
  · obtain ⟨x, e, e2⟩ := transcode_size_partial S T signed s d hs hd ⟨lax, false, false⟩ limit src ms hu hm hsp (by
      unfold SizeSpared
      split
      · rename_i h1 h2; exact absurd ⟨h1, h2⟩ h88
      · simp
      · simp
      · trivial)
    obtain ⟨x', e', hC⟩ := transcode_partial S T s d hs hd ⟨lax, false, false⟩ limit src ms hu hm hsp
    rw [e] at e'
    injection e' with e'
    subst e'
    obtain ⟨h1, h2, h3, h4⟩ := converts_all hC (by omega) (by intro m _; unfold stopAt; simp)
    rw [e2, h1, h2, h3, h4, marks_extent hm]

/-- C77 (part): unsafe_transcode_size, on sources without ill-formed sequences, except from UTF-8 to UTF-32 with a limit
(`Utf.unsafe_size_8to32_wrong`) -/
theorem unsafe_transcode_size_partial (S T : CharT) (s d : CharsetArg) (hs : s.name.unitSize = S.size)
    (hd : d.name.unitSize = T.size) (f : Flags) (limit : Nat) (src : List Nat) (ms : List Mark) (hu : Units s.name src)
    (hm : Marks f.lax s.name src ms) (hsp : Spared false f s.name d.name ms) (hw : ∀ m ∈ ms, m.bad = false)
    (hx : ¬ (s.name = .utf .utf8 ∧ d.name = .utf .utf32)) :
    ∃ q out, unsafeTranscodeSize S T s d f limit src = some q ∧ q.count = out.length ∧
      ConvertsIn f d.name src ms limit out q.stale q.u32dist q.why := by
  have hS : Sound f s.name d.name src ms := ⟨⟨hu, hm, hsp⟩, hw⟩
  unfold unsafeTranscodeSize
  rw [find_exact S T s d hs hd]
  cases h : hasSpec s.name d.name with
  | true =>
    rw [if_pos rfl]
    obtain ⟨r, e, hC⟩ := ptr_of_works (unsafe_works f s.name d.name h) hS limit
    have key : Tr.unsafeSize ⟨s.name, d.name⟩ f limit src = some ⟨r.out.length, r.rest, r.why⟩ := by
      generalize s.name = s at *
      generalize d.name = d at *
      cases s with
      | utf s =>
        cases d with
        | utf d =>
          have hwf := Utf.AllGood.wellFormed hu (sound_allGood hS)
          obtain ⟨r1, e1, e2⟩ := Utf.unsafe_agrees s d (utfFlags f) limit src hwf
          obtain ⟨r2, e3, e4⟩ := Utf.unsafe_size_agrees_partial s d (utfFlags f) limit src hwf (by simpa using hx)
          rw [e1] at e3
          injection e3 with e3
          subst e3
          have e : (Utf.unsafeTranscode s d (utfFlags f) limit src).map Charset.ofTR = some r := e
          rw [e2] at e
          injection e with e
          subst e
          exact e4
        | sbc j =>
          have : s = .utf32 := by simpa [hasSpec] using h
          subst this
          have e : Sbc.unsafeFromU32 (sbcOf j) f limit src = some r := e
          show Sbc.unsafeFromU32Size (sbcOf j) f limit src = _
          rw [Sbc.unsafe_from_u32_size_exact, e]
          rfl
      | sbc i =>
        have hv := sound_valid hS
        have pl : ∀ g : Flags, (Sbc.toU32Size (sbcOf i) g limit src) = some (Sbc.plainSize limit src) := by
          intro g
          have e1 := (Sbc.to_u32_size_exact _ (sbcOf_mem i) g limit src hu).2
          rw [← Print.unsafeSanitize_eq g limit src fun b hb => (hv b hb).2] at e1
          rw [e1]
          unfold Sbc.unsafeSanitize Utf.bypassUnsafe Sbc.plainSize
          rcases src with _ | ⟨b, t⟩
          · simp [Charset.ofTR]
          · rw [if_pos (by simp)]
            split_ifs with hl
            · rfl
            · simp only [Option.map_some, Charset.ofTR, Option.some.injEq]
              rw [List.length_take, Nat.min_eq_left (by omega)]
        cases d with
        | utf d =>
          have : d = .utf32 := by simpa [hasSpec] using h
          subst this
          have e : Sbc.unsafeToU32 (sbcOf i) limit src = some r := e
          obtain ⟨r1, e1, e2, -⟩ := Sbc.unsafe_to_u32_outcome _ (sbcOf_mem i) f limit src hv
          have e3 := (Sbc.to_u32_size_exact _ (sbcOf_mem i) f limit src hu).1
          rw [pl, e2, ← e1, e] at e3
          exact e3
        | sbc j =>
          have e : Sbc.unsafeSanitize limit src = some r := e
          have e3 := (Sbc.to_u32_size_exact _ (sbcOf_mem i) f limit src hu).2
          rw [pl, ← Print.unsafeSanitize_eq f limit src fun b hb => (hv b hb).2, e] at e3
          exact e3
    dsimp only
    rw [key]
    exact ⟨_, r.out, rfl, rfl, hC⟩
  | false =>
    rw [if_neg (by simp)]
    exact unsafe_decode_encode_size_partial s.name d.name f limit src ms hu hm hsp hw

/-! ## Where it is wrong -/

/-- "Ð" (U+00D0), which windows-1254 lacks, becomes the byte that stands for "Ğ" there. -/
theorem transcode_defect_wrong :
    transcode .char .char ⟨.utf .utf8, true⟩ ⟨.sbc 20, true⟩ ⟨false, false, false⟩ 10 [0xC3, 0x90] =
      some ⟨[], [0xD0], 0, .completed, []⟩ ∧
    (sbcOf 20).decode 0xD0 = 0x11E ∧ units (.sbc 20) 0xD0 = [0x3F] := by
  unfold transcode
  rw [find_exact _ _ _ _ rfl rfl]
  decide +kernel

/-- "Ａ" (U+FF21), which ASCII lacks, is invalid from UTF-32 and unsupported from UTF-8. -/
theorem transcode_private_wrong :
    transcode .char32 .char ⟨.utf .utf32, true⟩ ⟨.sbc 0, true⟩ ⟨false, true, true⟩ 10 [0xFF21] =
      some ⟨[0xFF21], [], 0, .invalid, [.invalid 1 1]⟩ ∧
    transcode .char .char ⟨.utf .utf8, true⟩ ⟨.sbc 0, true⟩ ⟨false, true, true⟩ 10 [0xEF, 0xBC, 0xA1] =
      some ⟨[0xEF, 0xBC, 0xA1], [], 0, .unsupported, [.unsupported 0xFF21]⟩ := by
  unfold transcode
  rw [find_exact _ _ _ _ rfl rfl, find_exact _ _ _ _ rfl rfl]
  decide +kernel

/-! ## Examples -/

/-- ISO-8859-7 "α€" and an undefined byte, then "a": to UTF-8, through UTF-32; the marks, and what is promised of them -/
example : Units (.sbc 7) [0xE1, 0xA4, 0xFF, 0x61] ∧
    Marks false (.sbc 7) [0xE1, 0xA4, 0xFF, 0x61] [⟨0x3B1, 1, false⟩, ⟨0x20AC, 1, false⟩, ⟨0xFFFD, 1, true⟩, ⟨0x61, 1, false⟩] ∧
    Spared true ⟨false, true, true⟩ (.sbc 7) (.utf .utf8) [⟨0x3B1, 1, false⟩, ⟨0x20AC, 1, false⟩, ⟨0xFFFD, 1, true⟩, ⟨0x61, 1, false⟩] := by
  refine ⟨by unfold Units; decide, by unfold Marks; decide +kernel, trivial⟩

example : transcode .char .char ⟨.sbc 7, false⟩ ⟨.utf .utf8, true⟩ ⟨false, true, true⟩ 100 [0xE1, 0xA4, 0xFF, 0x61] =
    some ⟨[0xFF, 0x61], [0xCE, 0xB1, 0xE2, 0x82, 0xAC], 0, .invalid, [.invalid 2 1]⟩ ∧
    transcode .char .char ⟨.sbc 7, false⟩ ⟨.utf .utf8, true⟩ ⟨false, false, false⟩ 100 [0xE1, 0xA4, 0xFF, 0x61] =
    some ⟨[], [0xCE, 0xB1, 0xE2, 0x82, 0xAC, 0xEF, 0xBF, 0xBD, 0x61], 0, .completed, [.invalid 2 1]⟩ ∧
    transcode .char .char ⟨.sbc 7, false⟩ ⟨.utf .utf8, true⟩ ⟨false, false, false⟩ 4 [0xE1, 0xA4, 0xFF, 0x61] =
    some ⟨[0xE1, 0xA4, 0xFF, 0x61], [0xCE, 0xB1], 1, .insufficient, [.invalid 2 1]⟩ := by
  unfold transcode
  rw [find_exact _ _ _ _ rfl rfl]
  decide +kernel

/-- and to a string -/
example : ConvertsTo Dest.Maker.dest Dest.Maker.Rep ⟨false, true, true⟩ (.utf .utf8) [0xE1, 0xA4, 0xFF, 0x61]
    [⟨0x3B1, 1, false⟩, ⟨0x20AC, 1, false⟩, ⟨0xFFFD, 1, true⟩, ⟨0x61, 1, false⟩] fun st =>
      transcodeDst Dest.Maker.dest .char .char ⟨.sbc 7, false⟩ ⟨.utf .utf8, true⟩ ⟨false, true, true⟩ st [0xE1, 0xA4, 0xFF, 0x61] :=
  transcode_dst_partial Dest.Maker.lawful _ _ _ _ rfl rfl _ _ _ (by unfold Units; decide) (by unfold Marks; decide +kernel) trivial

end Strf.Transcode

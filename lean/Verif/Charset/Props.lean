import Verif.Charset.UtfInst
import Verif.Sbc.Props
/-
C15, C20: transcoding through destinations and pivot buffers.
The specification of the UTFs is Utf/Spec.lean, that of single-byte charsets Sbc/Spec.lean; `Dest.Lawful` is the
contract of destinations, kept by all those of strf (Dest/): `Rep s t` says that the text `t` was given to it.
-/
namespace Strf.Charset
open Strf.Utf
open Strf.Dest (Dest Lawful Prints)

variable {σ : Type} {D : Dest Nat σ} {Rep : σ → List Nat → Prop}

/-! ### C15: UTF to UTF -/

/-- C15: transcoding to a destination, from any state of its buffer and whatever room it offers after each recycle,
terminates and gives the text that Unicode prescribes for the whole source; unless the destination has failed, the
result says `completed` and counts the units. -/
theorem transcode_any_buffer (L : Lawful D Rep) (s d : Enc) (lax : Bool) (src : List Nat) (hu : Units s src)
    (is : List Item) (hp : Parses s lax src is) (st : σ) (t : List Nat) (hr : Rep st t) :
    ∃ st' q, transcodeTo D (utfFunc s d ⟨lax, false⟩) st src = some (st', q) ∧ Rep st' (t ++ render d is) ∧
      (D.good st' = true → q.why = .completed ∧ q.rest = [] ∧ q.count = (render d is).length) := by
  have hi : items s lax src = is := parses_unique (parses_items _ hu) hp
  obtain ⟨why, rest, ev, hS, hE⟩ := utf_scripted s d ⟨lax, false⟩ src hu
  dsimp only at hS hE
  rw [passed_false, hi] at hS hE
  obtain ⟨st', q, e, r, _, h⟩ := transcodeTo_spec (τ := false) L hS st t hr
  rw [outs_pieces] at r h
  refine ⟨st', q, e, r, fun hg => ?_⟩
  rcases h with ⟨h1, h2, h3, _⟩ | ⟨h1, _⟩
  · rcases hE with ⟨e1, e2, _, _⟩ | ⟨_, e2, _⟩
    · exact ⟨by rw [h1, e1], by rw [h2, e2], h3⟩
    · cases e2
  · rw [hg] at h1; cases h1

/-- C15 with stop_on_invalid_sequence: what precedes the first ill-formed sequence is given, and the result says
where that sequence begins. -/
theorem transcode_any_buffer_stop (L : Lawful D Rep) (s d : Enc) (lax : Bool) (src : List Nat) (hu : Units s src)
    (good : List Item) (hg : ∀ i ∈ good, i.isBad = false) (n : Nat) (more : List Item)
    (hp : Parses s lax src (good ++ .bad n :: more)) (st : σ) (t : List Nat) (hr : Rep st t) :
    ∃ st' q, transcodeTo D (utfFunc s d ⟨lax, true⟩) st src = some (st', q) ∧ Rep st' (t ++ render d good) ∧
      (D.good st' = true → q.why = .invalid ∧ q.rest = src.drop (extent s good) ∧
        q.count = (render d good).length) := by
  have hi : items s lax src = good ++ .bad n :: more := parses_unique (parses_items _ hu) hp
  have hpass : passed true (good ++ .bad n :: more) = good := by
    clear hp hi
    unfold passed
    induction good with
    | nil => simp [Item.isBad]
    | cons i g ih =>
      have := hg i (by simp)
      rw [List.cons_append, List.takeWhile_cons, if_pos (by simp [this]), ih fun j hj => hg j (by simp [hj])]
  obtain ⟨why, rest, ev, hS, hE⟩ := utf_scripted s d ⟨lax, true⟩ src hu
  dsimp only at hS hE
  rw [hi, hpass] at hS hE
  obtain ⟨st', q, e, r, _, h⟩ := transcodeTo_spec (τ := false) L hS st t hr
  rw [outs_pieces] at r h
  refine ⟨st', q, e, r, fun hgd => ?_⟩
  rcases h with ⟨h1, h2, h3, _⟩ | ⟨h1, _⟩
  · rcases hE with ⟨_, _, _, e4⟩ | ⟨e1, _, _, _, _, e3, _⟩
    · have := congrArg List.length e4; simp at this
    · exact ⟨by rw [h1, e1], by rw [h2, e3], h3⟩
  · rw [hgd] at h1; cases h1

/-- For a string_maker: what finish() returns after transcoding into it. -/
theorem maker_finish {s : Dest.Maker Nat} {t : List Nat} (h : Dest.Maker.Rep s t) :
    (Dest.Maker.finishE true s).2 = some t := by
  obtain ⟨_, _, hg, hi, ht⟩ := h
  simp only [Dest.Maker.finishE, hg, if_true]
  cases hs : s.str with
  | none => rw [hs] at hi ht; simp at hi; simp [hi]; simpa using ht
  | some x => rw [hs] at hi ht; simp at hi; simp [hi]; simpa using ht

/-- C15 on a concrete destination: whatever was written before to the string_maker (so whatever room is left in its
buffer), the string returned has the transcoding appended. -/
theorem transcode_string_maker (s d : Enc) (lax : Bool) (src : List Nat) (hu : Units s src)
    (is : List Item) (hp : Parses s lax src is) (junk : List Nat) (hj : junk.length = 64) (ops : List (Dest.Op Nat))
    (hok : ∀ op ∈ ops, op.Ok) :
    ∃ st st' q, Dest.runOps Dest.Maker.dest (Dest.Maker.init junk) ops = some st ∧
      transcodeTo Dest.Maker.dest (utfFunc s d ⟨lax, false⟩) st src = some (st', q) ∧
      (Dest.Maker.finishE true st').2 = some (Dest.textOf ops ++ render d is) := by
  obtain ⟨st, e1, r, _⟩ := Dest.Maker.lawfulAll.prints_ops ops hok (Dest.Maker.init junk) []
    ⟨hj, by simp [Dest.Maker.init], rfl, rfl, rfl⟩
  obtain ⟨st', q, e2, r2, _⟩ := transcode_any_buffer Dest.Maker.lawful s d lax src hu is hp st _ r
  exact ⟨st, st', q, e1, e2, by rw [maker_finish r2, List.nil_append]⟩

example : Units .utf8 [0xE2, 0x82, 0xAC, 0xFF] ∧ ∃ is, Parses .utf8 false [0xE2, 0x82, 0xAC, 0xFF] is ∧
    render .utf16 is = [0x20AC, 0xFFFD] :=
  ⟨by decide +kernel, items .utf8 false [0xE2, 0x82, 0xAC, 0xFF], parses_items _ (by decide +kernel), by decide +kernel⟩

/-! ### C15: through UTF-32 -/

theorem item_scalar' {s : Enc} {lax : Bool} {src : List Nat} (hu : Units s src) :
    ∀ i ∈ items s lax src, Scalar lax i.char := item_scalar (parses_items _ hu)

/-- What decode_encode must do: print the text, and unless the destination failed report completion. -/
def DecodeEncodes (D : Dest Nat σ) (Rep : σ → List Nat → Prop) (toU32 fromU32 : Func) (src txt : List Nat) : Prop :=
  ∀ st t, Rep st t → ∃ st' q, decodeEncodeTo D toU32 fromU32 st src = some (st', q) ∧ Rep st' (t ++ txt) ∧
    (D.good st' = true → q.why = .completed ∧ q.stale = [] ∧ q.u32dist = 0 ∧ q.count = txt.length)

theorem decodeEncodes_of (L : Lawful D Rep) {toU32 fromU32 : Func} {ok : Nat → Prop} {enc : Nat → List Nat}
    {evc : Nat → List Event} (hc : CharWise fromU32 ok enc evc) {src : List Nat} {ps : List Piece}
    (h : Scripted toU32 src ps .completed [] []) (ho : OneEach ok ps) :
    DecodeEncodes D Rep toU32 fromU32 src ((outs ps).flatMap enc) := by
  intro st t hr
  obtain ⟨st', q, e, r, _, h⟩ := decodeEncodeTo_spec (τ := false) L hc h ho st t hr
  refine ⟨st', q, e, r, fun hg => ?_⟩
  rcases h with h | ⟨h1, _⟩
  · exact h
  · rw [hg] at h1; cases h1

theorem utf_scripted_go (s d : Enc) (lax : Bool) (src : List Nat) (hu : Units s src) {is : List Item}
    (hp : Parses s lax src is) : Scripted (utfFunc s d ⟨lax, false⟩) src (pieces s d src.length is) .completed [] [] := by
  have hi : items s lax src = is := parses_unique (parses_items _ hu) hp
  obtain ⟨why, rest, ev, hS, hE⟩ := utf_scripted s d ⟨lax, false⟩ src hu
  dsimp only at hS hE
  rw [passed_false, hi] at hS hE
  rcases hE with ⟨e1, e2, e3, _⟩ | ⟨_, e2, _⟩
  · rwa [e1, e2, e3] at hS
  · cases e2

theorem flatMap_outs32 (s d : Enc) (len : Nat) (is : List Item) :
    (outs (pieces s .utf32 len is)).flatMap (encode d) = render d is := by
  rw [outs_pieces, render_eq, render_eq]
  generalize is.map Item.char = l
  induction l with
  | nil => rfl
  | cons c l ih => rw [List.flatMap_cons, List.flatMap_append, ih]; simp [encode]

/-- C15: decoding to UTF-32 in blocks of 16 code points and encoding each block gives the same text as the direct
transcoder. -/
theorem decode_encode_utf (L : Lawful D Rep) (s d : Enc) (lax : Bool) (src : List Nat) (hu : Units s src)
    (is : List Item) (hp : Parses s lax src is) :
    DecodeEncodes D Rep (utfFunc s .utf32 ⟨lax, false⟩) (utfUnsafe .utf32 d ⟨lax, false⟩) src (render d is) := by
  rw [← flatMap_outs32 s d src.length is]
  exact decodeEncodes_of L (unsafe_charWise d ⟨lax, false⟩) (utf_scripted_go s .utf32 lax src hu hp)
    (oneEach_pieces s _ _ is (item_scalar hp))

/-! ### C15: single-byte charsets -/

theorem scripted_congr {f g : Func} (I : List Nat → Prop) (hI : ∀ l n, I l → I (l.drop n))
    (h : ∀ l, I l → ∀ room, f room l = g room l) {src : List Nat} {ps : List Piece} {why : Reason} {rest : List Nat}
    {ev : List Event} (hs : Scripted g src ps why rest ev) (hi : I src) : Scripted f src ps why rest ev := by
  induction hs with
  | done h1 h2 => exact .done h1 fun room => by rw [h _ hi]; exact h2 room
  | more h1 h2 h3 h4 h5 h6 _ ih =>
    exact .more h1 h2 h3 h4 (fun room hr => by rw [h _ hi]; exact h5 room hr)
      (fun room hr => by rw [h _ hi, h _ (hI _ _ hi)]; exact h6 room hr) (ih (hI _ _ hi))

/-- The pieces of a source of bytes. -/
def bytePieces (I : Sbc.Impl) (src : List Nat) : List Piece :=
  src.mapIdx fun i b => ⟨[I.decode b], 1, (Sbc.byteProblem I b).event (src.length - i) b⟩

theorem outs_mapIdx (unit : Nat → Nat) (ev : Nat → Nat → List Event) : ∀ (src : List Nat) (k : Nat),
    outs (src.mapIdx fun i b => ⟨[unit b], 1, ev (i + k) b⟩) = src.map unit := by
  intro src
  induction src with
  | nil => intro k; rfl
  | cons b src ih =>
    intro k
    rw [List.mapIdx_cons, outs_cons, List.map_cons]
    have := ih (k + 1)
    simp only [Nat.add_assoc, Nat.add_comm 1 k] at this ⊢
    rw [this]
    rfl

theorem outs_bytePieces (I : Sbc.Impl) (src : List Nat) : outs (bytePieces I src) = src.map I.decode := by
  unfold bytePieces
  exact outs_mapIdx I.decode (fun i b => (Sbc.byteProblem I b).event (src.length - i) b) src 0

theorem byte_noStop (I : Sbc.Impl) (lax unsup : Bool) (b : Nat) : (Sbc.byteProblem I b).stops ⟨lax, false, unsup⟩ = false := by
  unfold Sbc.byteProblem Sbc.Problem.stops
  cases I.isValid b <;> simp

theorem sbc_scripted {I : Sbc.Impl} (hI : I ∈ Sbc.all) (lax unsup : Bool) (src : List Nat) (hb : ∀ b ∈ src, b < 256) :
    Scripted (Sbc.toU32 I ⟨lax, false, unsup⟩) src (bytePieces I src) .completed [] [] := by
  refine scripted_congr (fun l => ∀ b ∈ l, b < 256) (fun l n h b hm => h b (List.mem_of_mem_drop hm)) ?_
    (Sbc.loop_scripted I.decode (Sbc.byteProblem I) ⟨lax, false, unsup⟩ src fun b _ => byte_noStop I lax unsup b) hb
  intro l hl room
  unfold Sbc.toU32
  exact Sbc.loop_congr l room fun ch hc t => Sbc.actToU32_eq (Sbc.good_all I hI) _ ch (hl ch hc) t

theorem oneEach_bytePieces (I : Sbc.Impl) (ok : Nat → Prop) (src : List Nat) (h : ∀ b ∈ src, ok (I.decode b)) :
    OneEach ok (bytePieces I src) := by
  intro p hp
  obtain ⟨i, hi, e⟩ := List.mem_mapIdx.1 hp
  rw [← e]
  exact ⟨_, rfl, h _ (List.getElem_mem hi)⟩

/-- The encoders of single-byte charsets work character by character. -/
theorem sbc_charWise (I : Sbc.Impl) (lax : Bool) :
    CharWise (Sbc.unsafeFromU32 I ⟨lax, false, false⟩) (fun _ => True) (fun c => [Sbc.encodeChar I c])
      (fun c => if I.encode c < 0x100 then [] else [.unsupported c]) := by
  intro cs _
  have := Sbc.loop_scripted (Sbc.encodeChar I) (fun ch => if I.encode ch < 0x100 then .none else .unsupported)
    ⟨lax, false, false⟩ cs (by intro ch _; split_ifs <;> rfl)
  have e : (cs.mapIdx fun i ch => (⟨[Sbc.encodeChar I ch], 1,
      (if I.encode ch < 0x100 then Sbc.Problem.none else .unsupported).event (cs.length - i) ch⟩ : Piece)) =
      cs.map fun c => ⟨[Sbc.encodeChar I c], 1, if I.encode c < 0x100 then [] else [.unsupported c]⟩ := by
    apply List.ext_getElem
    · simp
    · intro i h1 h2
      simp only [List.getElem_mapIdx, List.getElem_map]
      split_ifs <;> rfl
  rw [e] at this
  refine scripted_congr (fun _ => True) (fun _ _ _ => trivial) ?_ this trivial
  intro l _ room
  unfold Sbc.unsafeFromU32
  refine Sbc.loop_congr l room fun ch _ t => ?_
  unfold Sbc.actUnsafeFromU32 Sbc.genAct Sbc.encodeChar
  dsimp only
  rcases Nat.lt_or_ge (I.encode ch) 0x100 with g | g
  · rw [if_neg (by omega), if_pos g, if_pos g, Nat.mod_eq_of_lt g]
  · have hn : ¬ I.encode ch < 0x100 := by omega
    rw [if_pos g, if_neg hn, if_neg hn]

theorem decode_scalar {I : Sbc.Impl} (hI : I ∈ Sbc.all) (lax : Bool) (b : Nat) (hb : b < 256) : Scalar lax (I.decode b) := by
  have := (Sbc.good_all I hI).range b hb
  unfold Scalar IsSurr
  omega

/-- C15: from a single-byte charset to a UTF: each byte becomes the encoding of its meaning. -/
theorem decode_encode_sbc_utf (L : Lawful D Rep) (I : Sbc.Impl) (hI : I ∈ Sbc.all) (d : Enc) (lax : Bool) (src : List Nat)
    (hb : ∀ b ∈ src, b < 256) :
    DecodeEncodes D Rep (Sbc.toU32 I ⟨lax, false, false⟩) (utfUnsafe .utf32 d ⟨lax, false⟩) src
      (src.flatMap fun b => encode d (I.decode b)) := by
  have := decodeEncodes_of (Rep := Rep) L (unsafe_charWise d ⟨lax, false⟩) (sbc_scripted hI lax false src hb)
    (oneEach_bytePieces I _ src fun b h => decode_scalar hI lax b (hb b h))
  rw [outs_bytePieces, List.flatMap_map] at this
  exact this

/-- C15: from a UTF to a single-byte charset: each item becomes the byte for its character, or '?'. -/
theorem decode_encode_utf_sbc (L : Lawful D Rep) (I : Sbc.Impl) (hI : I ∈ Sbc.all) (s : Enc) (lax : Bool) (src : List Nat)
    (hu : Units s src) (is : List Item) (hp : Parses s lax src is) (hd : ∀ i ∈ is, ¬ Sbc.Defect I i.char) :
    DecodeEncodes D Rep (utfFunc s .utf32 ⟨lax, false⟩) (Sbc.unsafeFromU32 I ⟨lax, false, false⟩) src
      (is.map fun i => Sbc.byteOrQuestion I i.char) := by
  have := decodeEncodes_of (Rep := Rep) L (sbc_charWise I lax) (utf_scripted_go s .utf32 lax src hu hp)
    (oneEach_pieces s _ _ is fun _ _ => trivial)
  rw [outs_pieces, render_eq] at this
  have e : ((is.map Item.char).flatMap (encode .utf32)).flatMap (fun c => [Sbc.encodeChar I c]) =
      is.map fun i => Sbc.byteOrQuestion I i.char := by
    clear this hp
    induction is with
    | nil => rfl
    | cons i is ih =>
      rw [List.map_cons, List.flatMap_cons, List.flatMap_append, ih fun j hj => hd j (by simp [hj])]
      simp [encode, (Sbc.encode_char_byte I hI _ (hd i (by simp))).1]
  rwa [e] at this

/-- C15: between single-byte charsets. -/
theorem decode_encode_sbc_sbc (L : Lawful D Rep) (I J : Sbc.Impl) (hI : I ∈ Sbc.all) (hJ : J ∈ Sbc.all) (lax : Bool)
    (src : List Nat) (hb : ∀ b ∈ src, b < 256) (hd : ∀ b ∈ src, ¬ Sbc.Defect J (I.decode b)) :
    DecodeEncodes D Rep (Sbc.toU32 I ⟨lax, false, false⟩) (Sbc.unsafeFromU32 J ⟨lax, false, false⟩) src
      (src.map fun b => Sbc.byteOrQuestion J (I.decode b)) := by
  have := decodeEncodes_of (Rep := Rep) L (sbc_charWise J lax) (sbc_scripted hI lax false src hb)
    (oneEach_bytePieces I _ src fun _ _ => trivial)
  rw [outs_bytePieces, List.flatMap_map] at this
  have e : src.flatMap (fun b => [Sbc.encodeChar J (I.decode b)]) = src.map fun b => Sbc.byteOrQuestion J (I.decode b) := by
    clear this hb
    induction src with
    | nil => rfl
    | cons b src ih =>
      rw [List.flatMap_cons, List.map_cons, ih fun c hc => hd c (by simp [hc]),
        (Sbc.encode_char_byte J hJ _ (hd b (by simp))).1]
      rfl
  rw [e] at this
  exact this

example : Sbc.windows_1252 ∈ Sbc.all ∧ Sbc.iso_8859_15 ∈ Sbc.all ∧
    [0x80, 0x41].map (fun b => Sbc.byteOrQuestion Sbc.iso_8859_15 (Sbc.windows_1252.decode b)) = [0xA4, 0x41] := by
  refine ⟨by simp [Sbc.all], by simp [Sbc.all], by decide +kernel⟩

/-! ### C15: to pointer ranges -/

/-- decode_encode into `room` units: all the text, or the longest part of it made of whole characters that fits. -/
theorem decode_encode_ptr_utf (s d : Enc) (lax : Bool) (src : List Nat) (hu : Units s src) (is : List Item)
    (hp : Parses s lax src is) (room : Nat) :
    ∃ x, decodeEncodePtr (utfFunc s .utf32 ⟨lax, false⟩) (utfUnsafe .utf32 d ⟨lax, false⟩) (src.length + 1) room src = some x ∧
      (((render d is).length ≤ room ∧ x.out = render d is ∧ x.why = .completed ∧ x.stale = [] ∧ x.u32dist = 0) ∨
       (∃ done i todo, is = done ++ i :: todo ∧ x.out = render d done ∧ x.why = .insufficient ∧
          x.out.length ≤ room ∧ room < (render d (done ++ [i])).length)) := by
  have hS := utf_scripted_go s .utf32 lax src hu hp
  obtain ⟨x, e, h⟩ := decodeEncodePtr_spec (unsafe_charWise d ⟨lax, false⟩) (src.length + 1) room src _ hS
    (oneEach_pieces s _ _ is (item_scalar hp)) (by have := hS.length_le; omega)
  refine ⟨x, e, ?_⟩
  rw [flatMap_outs32] at h
  rcases h with ⟨h1, h2, h3, h4, h5⟩ | ⟨dn, mid, c, todo, h1, h2, h3, h4, h5, h6, _⟩
  · exact .inl ⟨h1, h3, h5, h2, h4⟩
  · refine .inr ?_
    have split : ∀ (ps : List Piece) (qs : List Piece) (len : Nat) (is : List Item), pieces s .utf32 len is = ps ++ qs →
        ∃ a b len', is = a ++ b ∧ ps = pieces s .utf32 len a ∧ qs = pieces s .utf32 len' b := by
      intro ps
      induction ps with
      | nil => intro qs len is h; exact ⟨[], is, len, rfl, rfl, h.symm⟩
      | cons p ps ih =>
        intro qs len is h
        cases is with
        | nil => cases h
        | cons i is =>
          rw [pieces, List.cons_append] at h
          injection h with g1 g2
          obtain ⟨a, b, len', e1, e2, e3⟩ := ih qs _ is g2
          exact ⟨i :: a, b, len', by rw [e1]; rfl, by rw [pieces, ← e2, ← g1], e3⟩
    obtain ⟨a, b, len', e1, e2, e3⟩ := split (dn ++ mid) (c :: todo) _ _ h1
    cases b with
    | nil => cases e3
    | cons i b =>
      refine ⟨a, i, b, e1, ?_, h4, h5, ?_⟩
      · rw [h2, e2, flatMap_outs32]
      · have : c = ⟨encode .utf32 i.char, i.size s, if i.isBad then [.invalid len' (i.size s)] else []⟩ := by
          rw [pieces] at e3; injection e3
        rw [outs_append, e2, List.flatMap_append, flatMap_outs32, this] at h6
        rw [render_append]
        simpa [outs, render, encode] using h6

/-- decode_encode_size gives the number of units that decode_encode writes, with either size function of the
destination charset and any size of the pivot buffer. -/
theorem decode_encode_size_utf (pivot : Nat) (hpv : 1 ≤ pivot) (signed : Bool) (s d : Enc) (lax : Bool) (src : List Nat) (hu : Units s src) (is : List Item)
    (hp : Parses s lax src is) (limit : Nat) (hl : (render d is).length ≤ limit) :
    decodeEncodeSize pivot (utfFunc s .utf32 ⟨lax, false⟩) (transcodeSize signed .utf32 d ⟨lax, false⟩) (src.length + 1) limit src =
      some ⟨(render d is).length, [], 0, .completed, []⟩ ∧
    decodeEncodeSize pivot (utfFunc s .utf32 ⟨lax, false⟩) (unsafeTranscodeSize .utf32 d ⟨lax, false⟩) (src.length + 1) limit src =
      some ⟨(render d is).length, [], 0, .completed, []⟩ := by
  have hS := utf_scripted_go s .utf32 lax src hu hp
  have ho := oneEach_pieces s (Scalar lax) src.length is (item_scalar hp)
  have hlen : (pieces s .utf32 src.length is).length < src.length + 1 := by have := hS.length_le; omega
  rw [← flatMap_outs32 s d src.length is] at hl ⊢
  exact ⟨decodeEncodeSize_spec (utf_sizeWise signed d lax) hpv _ limit src _ hS ho hlen hl,
    decodeEncodeSize_spec (unsafe_sizeWise d lax) hpv _ limit src _ hS ho hlen hl⟩

/-- decode_encode_size never gives more than the limit passed to it, whatever the source. -/
theorem decode_encode_size_limit (pivot : Nat) (signed : Bool) (s d : Enc) (lax : Bool) (fuel limit : Nat) (src : List Nat)
    (hu : Units s src) (x : DERes)
    (hx : decodeEncodeSize pivot (utfFunc s .utf32 ⟨lax, false⟩) (transcodeSize signed .utf32 d ⟨lax, false⟩) fuel limit src =
      some x) : x.count ≤ limit := by
  induction fuel generalizing limit src x with
  | zero => simp [decodeEncodeSize] at hx
  | succ fuel ih =>
    obtain ⟨r, e, hw⟩ := output_well_formed s .utf32 ⟨lax, false⟩ pivot src hu
    obtain ⟨r', e', done, todo, h1, h2, h3, _⟩ := transcode_outcome s .utf32 ⟨lax, false⟩ pivot src hu
    rw [e] at e'; cases e'
    have hr : Units s r.rest := by
      intro u hm; rw [h3] at hm; exact hu u (List.mem_of_mem_drop hm)
    have eu : utfFunc s .utf32 ⟨lax, false⟩ pivot src = some (ofTR r) := by unfold utfFunc; rw [e]; rfl
    unfold decodeEncodeSize at hx
    rw [eu] at hx
    dsimp only [ofTR] at hx
    obtain ⟨q, eq, hq, es⟩ := transcode_size_exact_partial signed .utf32 d ⟨lax, false⟩ limit r.out hw.units (by simp) (by simp)
    rw [es] at hx
    dsimp only at hx
    by_cases hc : q.why = .completed
    · rw [if_pos hc] at hx
      by_cases hi : r.why = .insufficient
      · rw [if_pos hi] at hx
        cases hm : decodeEncodeSize pivot (utfFunc s .utf32 ⟨lax, false⟩) (transcodeSize signed .utf32 d ⟨lax, false⟩) fuel
            (limit - q.out.length) r.rest with
        | none => rw [hm] at hx; cases hx
        | some y =>
          have := ih _ _ hr y hm
          rw [hm] at hx; cases hx
          dsimp only; omega
      · rw [if_neg hi] at hx; cases hx; exact hq
    · rw [if_neg hc] at hx; cases hx; exact hq

/-- With a limit of 3 the size of "éé" in UTF-8 is cut at one character. -/
example : decodeEncodeSize 1 (utfFunc .utf16 .utf32 ⟨false, false⟩) (transcodeSize false .utf32 .utf8 ⟨false, false⟩) 9 3
    [0xE9, 0xE9] = some ⟨2, [0xE9], 0, .insufficient, []⟩ := by decide +kernel

/-! ### C20 -/

/-- Each of the events occurs once or twice, in order. -/
inductive OnceOrTwice : List Event → List Event → Prop
  | nil : OnceOrTwice [] []
  | once {e : Event} {es l : List Event} : OnceOrTwice es l → OnceOrTwice (e :: es) (e :: l)
  | twice {e : Event} {es l : List Event} : OnceOrTwice es l → OnceOrTwice (e :: es) (e :: e :: l)

theorem onceOrTwice_of_repeats {ps : List Piece} {l : List Event} (h1 : ∀ p ∈ ps, p.events.length ≤ 1)
    (h : Repeats (ps.map Piece.events) l) : OnceOrTwice (evs ps) l := by
  induction ps generalizing l with
  | nil => cases h; exact .nil
  | cons p ps ih =>
    rw [evs_cons]
    have hl := h1 p (by simp)
    have ih' := fun l h => @ih l (fun q hq => h1 q (by simp [hq])) h
    obtain ⟨o, a, ev⟩ := p
    dsimp only at hl
    rw [List.map_cons] at h
    dsimp only at h ⊢
    match ev, hl with
    | [], _ =>
      cases h with
      | once h => exact ih' _ h
      | twice h => exact ih' _ h
    | [e], _ =>
      cases h with
      | once h => exact .once (ih' _ h)
      | twice h => exact .twice (ih' _ h)

theorem pieces_events_le (s d : Enc) (len : Nat) (is : List Item) : ∀ p ∈ pieces s d len is, p.events.length ≤ 1 := by
  induction is generalizing len with
  | nil => intro p hp; cases hp
  | cons i is ih =>
    intro p hp
    rw [pieces] at hp
    rcases List.mem_cons.1 hp with rfl | hp
    · dsimp only; split <;> simp
    · exact ih _ p hp

/-- C20, partial: whatever the buffers, unless the destination fails, each ill-formed sequence is notified once or
twice, in order, with its right position and size, and nothing else is notified; exactly once if all the text fits in
the buffer at the start. Missing: exactly once in general; see `notified_twice_wrong`. -/
theorem notifications_partial (L : Lawful D Rep) (s d : Enc) (lax : Bool) (src : List Nat) (hu : Units s src)
    (is : List Item) (hp : Parses s lax src is) (st : σ) (t : List Nat) (hr : Rep st t) :
    ∃ st' q, transcodeTo D (utfFunc s d ⟨lax, false⟩) st src = some (st', q) ∧
      (D.good st' = true → OnceOrTwice (noteEvents (badNotes s src.length is)) q.events) ∧
      (D.good st = true → (render d is).length ≤ D.space st → q.events = noteEvents (badNotes s src.length is)) := by
  have hS := utf_scripted_go s d lax src hu hp
  obtain ⟨st', q, e, r, _, h⟩ := transcodeTo_spec (τ := false) L hS st t hr
  refine ⟨st', q, e, fun hg => ?_, fun hg hsp => ?_⟩
  · rcases h with ⟨_, _, _, l, e1, e2⟩ | ⟨h1, _⟩
    · rw [e1, List.append_nil, ← evs_pieces s d]
      exact onceOrTwice_of_repeats (pieces_events_le s d _ is) e2
    · rw [hg] at h1; cases h1
  · have hc := hS.call_all (room := D.space st) (by rw [outs_pieces]; exact hsp)
    unfold transcodeTo at e
    rw [if_neg (by simp [hg]), transcodeLoop, hc, outs_pieces] at e
    dsimp only at e
    obtain ⟨s1, e1, _⟩ := L.poke st t (render d is) hr hsp
    rw [e1] at e
    dsimp only at e
    rw [if_pos (by simp)] at e
    injection e with e
    injection e with _ e
    rw [← e, evs_pieces, List.append_nil]

/-- C20 fails: when the buffer of the destination is full just before an ill-formed sequence, the notifier is called
twice for it. Here 63 letters and the byte FF, into a fresh string_maker (64 units of buffer). -/
theorem notified_twice_wrong :
    (transcodeTo Dest.Maker.dest (utfFunc .utf8 .utf8 ⟨false, false⟩) (Dest.Maker.init (List.replicate 64 0))
      (List.replicate 63 0x61 ++ [0xFF])).map (fun x => x.2.events) = some [.invalid 1 1, .invalid 1 1] ∧
    badNotes .utf8 64 (items .utf8 false (List.replicate 63 0x61 ++ [0xFF])) = [⟨1, 1⟩] := by
  decide +kernel

end Strf.Charset

import Verif.Print.Strings
/-!
The charsets and width calculators of strf for the string printers: which transcoder is used between two charsets
(charset.hpp find_transcoder), and that the text is the one that the charsets prescribe.
-/
namespace Strf.Print
open Strf.Width
open Strf.Charset
open Strf.Utf (Enc Units Parses items extent encode render Scalar)
open Strf.Dest (Dest Lawful Prints)
open Strf.WidthCalc (textColumns)

variable {σ : Type}

/-- The charsets of strf. -/
inductive Cs
  | utf (e : Enc)
  | sbc (I : Sbc.Impl)

/-- The strings of the charset: any code units of its type. -/
def Cs.Units : Cs → List Nat → Prop
  | .utf e, src => Utf.Units e src
  | .sbc I, src => I ∈ Sbc.all ∧ ∀ b ∈ src, b < 256

/-- How a string is read (Utf/Spec.lean, Sbc/Spec.lean): its characters, with U+FFFD for each ill-formed sequence and invalid
byte, each with the number of units that it takes. -/
def Cs.Reads : Cs → List Nat → List (Nat × Nat) → Prop
  | .utf e, src, cs => ∃ its, Parses e false src its ∧ cs = its.map fun i => (i.char, i.size e)
  | .sbc I, src, cs => cs = src.map fun b => (I.decode b, 1)

/-- The function for it. -/
def Cs.read : Cs → List Nat → List (Nat × Nat)
  | .utf e => WidthCalc.utfRead e
  | .sbc I => WidthCalc.sbcRead I

/-- The units of a character: Unicode's encoding forms; in a single-byte charset the byte for it, or '?'. -/
def Cs.encode : Cs → Nat → List Nat
  | .utf e => Utf.encode e
  | .sbc I => fun c => [Sbc.encodeChar I c]

/-- The text of a string in another charset. -/
def Cs.textIn (s d : Cs) (src : List Nat) : List Nat := ((s.read src).map Prod.fst).flatMap d.encode

/-- charset.hpp 920–1047 find_transcoder: transcode_func, transcode_size_func. Between UTFs (utf.hpp 235–875), and between
UTF-32 and a single-byte charset (single_byte_charsets.hpp 2440–2740) there are transcoders; else the text goes through UTF-32
(to_u32, and the unsafe functions of from_u32). `signed`: the code unit type of the source is a signed integer. -/
def content (D : Dest Nat σ) (signed : Bool) : Cs → Cs → Content σ
  | .utf s, .utf d => .direct D (utfFunc s d ⟨false, false⟩) (Utf.transcodeSize signed s d ⟨false, false⟩)
  | .sbc I, .utf .utf32 => .direct D (Sbc.toU32 I ⟨false, false, false⟩) (Sbc.toU32Size I ⟨false, false, false⟩)
  | .utf .utf32, .sbc J => .direct D (Sbc.fromU32 J ⟨false, false, false⟩) (Sbc.fromU32Size J ⟨false, false, false⟩)
  | .sbc I, .utf d => .pivot D 16 (Sbc.toU32 I ⟨false, false, false⟩) (utfUnsafe .utf32 d ⟨false, false⟩)
      (Utf.unsafeTranscodeSize .utf32 d ⟨false, false⟩)
  | .utf s, .sbc J => .pivot D 16 (utfFunc s .utf32 ⟨false, false⟩) (Sbc.unsafeFromU32 J ⟨false, false, false⟩)
      (Sbc.unsafeFromU32Size J ⟨false, false, false⟩)
  | .sbc I, .sbc J => .pivot D 16 (Sbc.toU32 I ⟨false, false, false⟩) (Sbc.unsafeFromU32 J ⟨false, false, false⟩)
      (Sbc.unsafeFromU32Size J ⟨false, false, false⟩)

/-- single_byte_charsets.hpp 2742–2860: from a single-byte charset to itself (format functions sani and sanitize) -/
def sanitizeContent (D : Dest Nat σ) (I : Sbc.Impl) : Content σ :=
  .direct D (Sbc.sanitize I ⟨false, false, false⟩) (Sbc.toU32Size I ⟨false, false, false⟩)

variable {D : Dest Nat σ} {Rep : σ → List Nat → Prop}

theorem Cs.reads_read (s : Cs) (src : List Nat) (h : s.Units src) : s.Reads src (s.read src) := by
  cases s with
  | utf e => exact ⟨_, Utf.parses_items src h, rfl⟩
  | sbc I => rfl

theorem Cs.reads_unique (s : Cs) (src : List Nat) (h : s.Units src) (cs : List (Nat × Nat)) (hc : s.Reads src cs) :
    cs = s.read src := by
  cases s with
  | utf e =>
    obtain ⟨its, hp, rfl⟩ := hc
    rw [Utf.parses_unique hp (Utf.parses_items src h)]
    rfl
  | sbc I => exact hc

theorem copy_lawful (L : Lawful D Rep) (Ok : List Nat → Prop) : (Content.copy D).Lawful D Rep Ok id :=
  ⟨fun src _ => L.prints_write (τ := true) src, fun _ _ _ => rfl⟩

theorem copyOther_lawful (L : Lawful D Rep) (Ok : List Nat → Prop) : (Content.copyOther D).Lawful D Rep Ok id :=
  ⟨fun src _ => by have := L.prints_interchar (τ := true) (β := Nat) id src; simpa using this, fun _ _ _ => rfl⟩

theorem direct_prints (L : Lawful D Rep) {func : Func} {size : SizeFunc} {src : List Nat} {ps : List Piece} {why : Utf.Reason}
    {rest : List Nat} {ev : List Event} (h : Scripted func src ps why rest ev) :
    Prints τ D Rep ((Content.direct D func size).write src) (outs ps) := by
  intro s t hr
  obtain ⟨s', q, e, r, g, _⟩ := transcodeTo_spec L h s t hr
  exact ⟨s', by dsimp only; rw [e]; rfl, r, g⟩

theorem pivot_prints (L : Lawful D Rep) {pivot : Nat} {toU32 fromU32 : Func} {size : SizeFunc} {ok : Nat → Prop}
    {enc : Nat → List Nat} {evc : Nat → List Event} (hc : CharWise fromU32 ok enc evc) {src : List Nat} {ps : List Piece}
    {why : Utf.Reason} {rest : List Nat} {ev : List Event} (h : Scripted toU32 src ps why rest ev) (ho : OneEach ok ps) :
    Prints τ D Rep ((Content.pivot D pivot toU32 fromU32 size).write src) ((outs ps).flatMap enc) := by
  intro s t hr
  obtain ⟨s', q, e, r, g, _⟩ := decodeEncodeTo_spec L hc h ho s t hr
  exact ⟨s', by dsimp only; rw [e]; rfl, r, g⟩

theorem pivot_size {pivot : Nat} (hp : 1 ≤ pivot) {toU32 fromU32 : Func} {size : SizeFunc} {ok : Nat → Prop}
    {enc : Nat → List Nat} (hc : SizeWise size ok enc) {src : List Nat} {ps : List Piece}
    {why : Utf.Reason} {rest : List Nat} {ev : List Event} (h : Scripted toU32 src ps why rest ev) (ho : OneEach ok ps)
    (hl : ((outs ps).flatMap enc).length < ssizeMax) :
    (Content.pivot D pivot toU32 fromU32 size).size src = some ((outs ps).flatMap enc).length := by
  dsimp only
  rw [decodeEncodeSize_spec hc hp (src.length + 1) ssizeMax src ps h ho (by have := h.length_le; omega) (by omega)]
  rfl

theorem sbc_sizeWise (I : Sbc.Impl) : SizeWise (Sbc.unsafeFromU32Size I ⟨false, false, false⟩) (fun _ => True)
    (fun c => [Sbc.encodeChar I c]) := by
  intro limit cs hc hl
  rw [Sbc.unsafe_from_u32_size_exact]
  have hS := sbc_charWise I false cs (fun _ _ => trivial)
  have hlen : (outs (cs.map fun c => (⟨[Sbc.encodeChar I c], 1, if I.encode c < 0x100 then [] else [.unsupported c]⟩ : Piece))).length ≤ limit := by
    rw [outs_map]; exact hl
  rw [hS.call_all hlen]
  simp [outs_map]

theorem render_eq_flatMap (d : Enc) (its : List Utf.Item) :
    render d its = ((its.map fun i => (i.char, i.size .utf8)).map Prod.fst).flatMap (encode d) := by
  rw [Utf.render_eq, List.map_map]; rfl

theorem textIn_utf_utf (s d : Enc) (src : List Nat) :
    Cs.textIn (.utf s) (.utf d) src = render d (items s false src) := by
  unfold Cs.textIn Cs.read WidthCalc.utfRead Cs.encode
  rw [Utf.render_eq, List.map_map]; rfl

theorem textIn_sbc (I : Sbc.Impl) (d : Cs) (src : List Nat) :
    Cs.textIn (.sbc I) d src = (src.map I.decode).flatMap d.encode := by
  unfold Cs.textIn Cs.read WidthCalc.sbcRead
  rw [List.map_map]; rfl

theorem outs32 (s : Enc) (len : Nat) (its : List Utf.Item) : outs (pieces s .utf32 len its) = its.map Utf.Item.char := by
  rw [outs_pieces, Utf.render_eq]
  generalize its.map Utf.Item.char = l
  induction l with
  | nil => rfl
  | cons c l ih => rw [List.flatMap_cons, ih]; rfl

theorem textIn_utf (s : Enc) (d : Cs) (src : List Nat) :
    Cs.textIn (.utf s) d src = ((items s false src).map Utf.Item.char).flatMap d.encode := by
  unfold Cs.textIn Cs.read WidthCalc.utfRead
  rw [List.map_map]; rfl

theorem flatMap_single (f : Nat → Nat) (l : List Nat) : l.flatMap (fun c => [f c]) = l.map f := by
  induction l with
  | nil => rfl
  | cons c l ih => rw [List.flatMap_cons, ih]; rfl

/-- a character that cannot be encoded becomes '?', as U+FFFD does -/
theorem encodeChar_fffd {I : Sbc.Impl} (hI : I ∈ Sbc.all) : Sbc.encodeChar I 0xFFFD = 0x3F := by
  unfold Sbc.encodeChar; rw [(Sbc.good_all I hI).fffd]; decide

theorem encodeChar_bad {I : Sbc.Impl} (hI : I ∈ Sbc.all) {c : Nat} (h : ¬ Scalar false c) : Sbc.encodeChar I c = 0x3F := by
  unfold Sbc.encodeChar
  have hb : 0x100 ≤ I.encode c := (Sbc.good_all I hI).big c
    (by unfold Scalar Utf.IsSurr at h; simp at h; omega) (by rintro rfl; exact h (by decide))
  rw [if_neg (by omega)]

/-- reading UTF-32 -/
theorem items_utf32 (src : List Nat) (hu : Units .utf32 src) :
    items .utf32 false src = src.map fun c => if Scalar false c then .ch c else .bad 1 := by
  induction src with
  | nil => unfold items; rfl
  | cons c t ih =>
    have hp := Utf.parses_items (e := .utf32) (lax := false) (c :: t) hu
    have ht : Units .utf32 t := fun u h => hu u (by simp [h])
    rw [List.map_cons, ← ih ht]
    refine Utf.parses_unique hp ?_
    by_cases hs : Scalar false c
    · rw [if_pos hs]
      refine .ch ⟨hs, by simp [encode], ?_⟩ (by simpa [encode] using Utf.parses_items t ht)
      intro c' _ _; simp [encode]
    · rw [if_neg hs]
      refine .bad (by simp) ?_ ⟨by omega, by simp, .inl rfl, ?_⟩ (by simpa using Utf.parses_items t ht)
      · rintro c' ⟨h1, h2, _⟩
        have : c' = c := by simpa [encode] using h2
        exact hs (this ▸ h1)
      · rintro m h1 h2 ⟨c', _, hp⟩
        have h3 : (encode Enc.utf32 c').length = 1 := rfl
        have h4 := hp.length_le
        rw [List.length_take, h3, List.length_cons] at h4
        rw [List.length_cons] at h2
        omega

theorem fromU32_scripted (I : Sbc.Impl) (hI : I ∈ Sbc.all) (cs : List Nat) : ∃ ps,
    Scripted (Sbc.fromU32 I ⟨false, false, false⟩) cs ps .completed [] [] ∧ outs ps = cs.map (Sbc.encodeChar I) := by
  have G := Sbc.good_all I hI
  have h := Sbc.loop_scripted (Sbc.encodeChar I) (fun ch => if I.encode ch < 0x100 then .none else
    if Sbc.isInvalid ⟨false, false, false⟩ ch then .invalid else .unsupported) ⟨false, false, false⟩ cs
    (by intro ch _; split_ifs <;> rfl)
  refine ⟨_, scripted_congr (fun _ => True) (fun _ _ _ => trivial) ?_ h trivial, ?_⟩
  · intro l _ room
    unfold Sbc.fromU32
    refine Sbc.loop_congr l room fun ch _ t => ?_
    unfold Sbc.actFromU32 Sbc.genAct Sbc.encodeChar
    dsimp only
    rcases Nat.lt_or_ge (I.encode ch) 0x100 with g | g
    · rw [if_neg (by omega), if_pos g, if_pos g, Nat.mod_eq_of_lt g]
    · have hn : ¬ I.encode ch < 0x100 := by omega
      rw [if_pos g, if_neg hn, if_neg hn]
      cases Sbc.isInvalid ⟨false, false, false⟩ ch <;> rfl
  · have := outs_mapIdx (Sbc.encodeChar I) (fun i ch => (if I.encode ch < 0x100 then Sbc.Problem.none else
      if Sbc.isInvalid ⟨false, false, false⟩ ch then .invalid else .unsupported).event (cs.length - i) ch) cs 0
    simpa using this

theorem fromU32_size (I : Sbc.Impl) (hI : I ∈ Sbc.all) (cs : List Nat) (h : cs.length < ssizeMax) :
    (Sbc.fromU32Size I ⟨false, false, false⟩ ssizeMax cs).map (·.size) = some cs.length := by
  rw [Sbc.from_u32_size_partial I hI _ _ _ (by simp) (by simp)]
  obtain ⟨ps, hS, ho⟩ := fromU32_scripted I hI cs
  rw [hS.call_all (room := ssizeMax) (by rw [ho, List.length_map]; omega)]
  simp [ho]

theorem decode_eq {I : Sbc.Impl} (hI : I ∈ Sbc.all) {b : Nat} (hb : b < 256) :
    (if I.isValid b then b else 0x3F) = Sbc.encodeChar I (I.decode b) := by
  have G := Sbc.good_all I hI
  cases hv : I.isValid b with
  | true =>
    unfold Sbc.encodeChar
    rw [G.back b hb hv, if_pos rfl, if_pos hb]
  | false =>
    rw [(G.valid b hb).1 hv, encodeChar_fffd hI]
    rfl

/-- The text of a string printed in another charset is that of its characters, and the size is its length. -/
theorem content_lawful (L : Lawful D Rep) (signed : Bool) (s d : Cs) (hd : d.Units []) :
    (content D signed s d).Lawful D Rep s.Units (s.textIn d) := by
  have pivotU : ∀ (s : Enc) (J : Sbc.Impl), (Content.pivot D 16 (utfFunc s .utf32 ⟨false, false⟩)
      (Sbc.unsafeFromU32 J ⟨false, false, false⟩) (Sbc.unsafeFromU32Size J ⟨false, false, false⟩)).Lawful D Rep
      (Cs.utf s).Units (Cs.textIn (.utf s) (.sbc J)) := by
    intro s J
    constructor
    · intro src h
      rw [textIn_utf, ← outs32 s src.length]
      exact pivot_prints L (sbc_charWise J false) (utf_scripted_go s .utf32 false src h (Utf.parses_items src h))
        (oneEach_pieces s _ _ _ fun _ _ => trivial)
    · intro src h
      rw [textIn_utf, ← outs32 s src.length]
      exact pivot_size (by omega) (sbc_sizeWise J) (utf_scripted_go s .utf32 false src h (Utf.parses_items src h))
        (oneEach_pieces s _ _ _ fun _ _ => trivial)
  have pivotS : ∀ (I : Sbc.Impl) (d : Enc), (Content.pivot D 16 (Sbc.toU32 I ⟨false, false, false⟩)
      (utfUnsafe .utf32 d ⟨false, false⟩) (Utf.unsafeTranscodeSize .utf32 d ⟨false, false⟩)).Lawful D Rep
      (Cs.sbc I).Units (Cs.textIn (.sbc I) (.utf d)) := by
    intro I d
    constructor
    · rintro src ⟨hI, h⟩
      rw [textIn_sbc, ← outs_bytePieces]
      exact pivot_prints L (unsafe_charWise d ⟨false, false⟩) (sbc_scripted hI false false src h)
        (oneEach_bytePieces I _ src fun b hb => decode_scalar hI false b (h b hb))
    · rintro src ⟨hI, h⟩
      rw [textIn_sbc, ← outs_bytePieces]
      exact pivot_size (by omega) (unsafe_sizeWise d false) (sbc_scripted hI false false src h)
        (oneEach_bytePieces I _ src fun b hb => decode_scalar hI false b (h b hb))
  cases s with
  | utf s =>
    cases d with
    | utf d =>
      constructor
      · intro src h
        rw [textIn_utf_utf, ← outs_pieces s d src.length]
        have := direct_prints (τ := true) (D := D) (size := Utf.transcodeSize signed s d ⟨false, false⟩) L
          (utf_scripted_go s d false src h (Utf.parses_items src h))
        cases s <;> exact this
      · intro src h hl
        rw [textIn_utf_utf] at hl ⊢
        obtain ⟨its, hp, e⟩ := Utf.transcode_size_reserve signed s d false src h
        have := Utf.parses_unique hp (Utf.parses_items src h)
        subst this
        have e1 := e ssizeMax hl
        have : (content D signed (.utf s) (.utf d)).size src =
            (Utf.transcodeSize signed s d ⟨false, false⟩ ssizeMax src).map (·.size) := by cases s <;> rfl
        rw [this, e1]
        rfl
    | sbc J =>
      cases s with
      | utf8 => exact pivotU .utf8 J
      | utf16 => exact pivotU .utf16 J
      | utf32 =>
        have hJ := hd.1
        have key : ∀ src, Units .utf32 src → Cs.textIn (.utf .utf32) (.sbc J) src = src.map (Sbc.encodeChar J) := by
          intro src h
          rw [textIn_utf, items_utf32 src h]
          show List.flatMap (fun c => [Sbc.encodeChar J c]) _ = _
          rw [flatMap_single, List.map_map, List.map_map]
          refine List.map_congr_left fun c _ => ?_
          simp only [Function.comp]
          by_cases hs : Scalar false c
          · rw [if_pos hs]; rfl
          · rw [if_neg hs, encodeChar_bad hJ hs]
            exact encodeChar_fffd hJ
        constructor
        · intro src h
          obtain ⟨ps, hS, ho⟩ := fromU32_scripted J hJ src
          rw [key src h, ← ho]
          exact direct_prints L hS
        · intro src h hl
          rw [key src h, List.length_map] at hl ⊢
          exact fromU32_size J hJ src hl
  | sbc I =>
    cases d with
    | utf d =>
      cases d with
      | utf8 => exact pivotS I .utf8
      | utf16 => exact pivotS I .utf16
      | utf32 =>
        have key : ∀ src, Cs.textIn (.sbc I) (.utf .utf32) src = src.map I.decode := by
          intro src
          rw [textIn_sbc]
          show List.flatMap (fun c => [c]) _ = _
          rw [show (fun c : Nat => [c]) = fun c => [id c] from rfl, flatMap_single, List.map_id]
        constructor
        · rintro src ⟨hI, h⟩
          rw [key, ← outs_bytePieces]
          exact direct_prints L (sbc_scripted hI false false src h)
        · rintro src ⟨hI, h⟩ hl
          rw [key, List.length_map] at hl ⊢
          show (Sbc.toU32Size I ⟨false, false, false⟩ ssizeMax src).map (·.size) = _
          rw [(Sbc.to_u32_size_exact I hI _ _ src h).1, (sbc_scripted hI false false src h).call_all
            (by rw [outs_bytePieces, List.length_map]; omega)]
          simp [outs_bytePieces]
    | sbc J =>
      constructor
      · rintro src ⟨hI, h⟩
        rw [textIn_sbc, ← outs_bytePieces]
        exact pivot_prints L (sbc_charWise J false) (sbc_scripted hI false false src h)
          (oneEach_bytePieces I _ src fun _ _ => trivial)
      · rintro src ⟨hI, h⟩
        rw [textIn_sbc, ← outs_bytePieces]
        exact pivot_size (by omega) (sbc_sizeWise J) (sbc_scripted hI false false src h)
          (oneEach_bytePieces I _ src fun _ _ => trivial)

/-- Sanitising a string of a single-byte charset gives the same text as transcoding it to UTF and back. -/
theorem sanitize_lawful (L : Lawful D Rep) (I : Sbc.Impl) :
    (sanitizeContent D I).Lawful D Rep (Cs.sbc I).Units (Cs.textIn (.sbc I) (.sbc I)) := by
  have key : ∀ src, (Cs.sbc I).Units src → ∃ ps, Scripted (Sbc.sanitize I ⟨false, false, false⟩) src ps .completed [] [] ∧
      outs ps = Cs.textIn (.sbc I) (.sbc I) src := by
    rintro src ⟨hI, h⟩
    have h1 := Sbc.loop_scripted (fun b => if I.isValid b then b else 0x3F) (Sbc.byteProblem I) ⟨false, false, false⟩ src
      fun b _ => byte_noStop I false false b
    refine ⟨_, scripted_congr (fun _ => True) (fun _ _ _ => trivial) ?_ h1 trivial, ?_⟩
    · intro l _ room
      unfold Sbc.sanitize
      exact Sbc.loop_congr l room fun ch _ t => Sbc.actSanitize_eq I _ ch t
    · have := outs_mapIdx (fun b => if I.isValid b then b else 0x3F)
        (fun i ch => (Sbc.byteProblem I ch).event (src.length - i) ch) src 0
      rw [textIn_sbc]
      show _ = List.flatMap (fun c => [Sbc.encodeChar I c]) _
      rw [flatMap_single, List.map_map]
      have e : src.map (fun b => if I.isValid b then b else 0x3F) = src.map (Sbc.encodeChar I ∘ I.decode) :=
        List.map_congr_left fun b hb => decode_eq hI (h b hb)
      rw [← e]
      simpa using this
  constructor
  · intro src h
    obtain ⟨ps, hS, ho⟩ := key src h
    rw [← ho]
    exact direct_prints L hS
  · intro src h hl
    obtain ⟨ps, hS, ho⟩ := key src h
    show (Sbc.toU32Size I ⟨false, false, false⟩ ssizeMax src).map (·.size) = _
    rw [(Sbc.to_u32_size_exact I h.1 _ _ src h.2).2, hS.call_all (by rw [ho]; omega)]
    simp [ho]

end Strf.Print

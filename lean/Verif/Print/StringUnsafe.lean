import Verif.Print.StringInst
/-!
The transcoders that do not check their input (transcoding policy `unsafe`: format functions `.unsafe_conv` and
`.unsafe_transcode`, docs/ref_printable_types.adoc), on well-formed strings.
-/
namespace Strf.Print
open Strf.Width
open Strf.Charset
open Strf.Utf (Enc Units Parses items extent encode render Scalar AllGood WellFormed)
open Strf.Dest (Dest Lawful Prints)

variable {σ : Type} {D : Dest Nat σ} {Rep : σ → List Nat → Prop}

/-- The well-formed strings of a charset: encodings of Unicode scalar values; bytes that stand for a character. -/
def Cs.WellFormed : Cs → List Nat → Prop
  | .utf e, src => Utf.WellFormed e false src
  | .sbc I, src => I ∈ Sbc.all ∧ ∀ b ∈ src, b < 256 ∧ I.isValid b = true

/-- charset.hpp 920–1047 find_transcoder: unsafe_transcode_func, unsafe_transcode_size_func; when there are none,
string.hpp 1151–1179, 1323–1329, 1355–1373: through UTF-32, with the unsafe functions of to_u32 and from_u32. -/
def unsafeContent (D : Dest Nat σ) : Cs → Cs → Content σ
  | .utf s, .utf d => .direct D (utfUnsafe s d ⟨false, false⟩) (Utf.unsafeTranscodeSize s d ⟨false, false⟩)
  | .sbc I, .utf .utf32 => .direct D (Sbc.unsafeToU32 I) (fun limit src => some (Sbc.plainSize limit src))
  | .utf .utf32, .sbc J => .direct D (Sbc.unsafeFromU32 J ⟨false, false, false⟩) (Sbc.unsafeFromU32Size J ⟨false, false, false⟩)
  | .sbc I, .utf d => .pivot D 32 (Sbc.unsafeToU32 I) (utfUnsafe .utf32 d ⟨false, false⟩)
      (Utf.unsafeTranscodeSize .utf32 d ⟨false, false⟩)
  | .utf s, .sbc J => .pivot D 32 (utfUnsafe s .utf32 ⟨false, false⟩) (Sbc.unsafeFromU32 J ⟨false, false, false⟩)
      (Sbc.unsafeFromU32Size J ⟨false, false, false⟩)
  | .sbc I, .sbc J => .pivot D 32 (Sbc.unsafeToU32 I) (Sbc.unsafeFromU32 J ⟨false, false, false⟩)
      (Sbc.unsafeFromU32Size J ⟨false, false, false⟩)

theorem Cs.WellFormed.units {s : Cs} {src : List Nat} (h : s.WellFormed src) : s.Units src := by
  cases s with
  | utf e => exact Utf.WellFormed.units h
  | sbc I => exact ⟨h.1, fun b hb => (h.2 b hb).1⟩

theorem utfUnsafe_scripted (s d : Enc) (src : List Nat) (h : WellFormed s false src) :
    Scripted (utfUnsafe s d ⟨false, false⟩) src (pieces s d src.length (items s false src)) .completed [] [] := by
  obtain ⟨why, rest, ev, hS, hE⟩ := scripted_of_spec (func := utfUnsafe s d ⟨false, false⟩) (s := s) (d := d)
    (f := ⟨false, false⟩) (fun l => Units s l ∧ AllGood s false l)
    (fun room src hs => by unfold utfUnsafe; rw [Utf.unsafe_spec s d ⟨false, false⟩ room src hs.1 hs.2])
    (fun ch t hs => ⟨fun u hu => hs.1 u (List.mem_cons_of_mem _ (List.mem_of_mem_drop hu)), hs.2.next⟩) src
    ⟨h.units, h.allGood⟩ h.units
  rw [passed_false] at hS hE
  rcases hE with ⟨rfl, rfl, rfl, _⟩ | ⟨_, g, _⟩
  · exact hS
  · cases g

theorem sbcUnsafe_scripted {I : Sbc.Impl} (src : List Nat) : ∃ ps,
    Scripted (Sbc.unsafeToU32 I) src ps .completed [] [] ∧ outs ps = src.map I.decode ∧
      ∀ ok : Nat → Prop, (∀ b ∈ src, ok (I.decode b)) → OneEach ok ps := by
  have h1 := Sbc.loop_scripted I.decode (fun _ => .none) ⟨false, false, false⟩ src fun b _ => rfl
  refine ⟨_, scripted_congr (fun _ => True) (fun _ _ _ => trivial) ?_ h1 trivial, ?_, ?_⟩
  · intro l _ room
    unfold Sbc.unsafeToU32
    exact Sbc.loop_congr l room fun ch _ t => rfl
  · have := outs_mapIdx I.decode (fun i ch => Sbc.Problem.none.event (src.length - i) ch) src 0
    simpa using this
  · intro ok hok p hp
    obtain ⟨i, hi, rfl⟩ := List.mem_mapIdx.1 hp
    exact ⟨_, rfl, hok _ (List.getElem_mem _)⟩

theorem wf_size (s d : Enc) (src : List Nat) (h : WellFormed s false src)
    (hl : (render d (items s false src)).length < ssizeMax) :
    (Utf.unsafeTranscodeSize s d ⟨false, false⟩ ssizeMax src).map (·.size) = some (render d (items s false src)).length := by
  by_cases hx : s = .utf8 ∧ d = .utf32
  · obtain ⟨rfl, rfl⟩ := hx
    obtain ⟨cs, hc, rfl⟩ := h
    have hw : WellFormed .utf8 false (cs.flatMap (encode .utf8)) := ⟨cs, hc, rfl⟩
    have hi := Utf.parses_unique (Utf.parses_items _ hw.units) (Utf.parses_wf (lax := false) (e := .utf8) (by simp) cs hc)
    have hlen : (render .utf32 (items .utf8 false (cs.flatMap (encode .utf8)))).length = cs.length := by
      rw [hi, WidthCalc.render_utf32]; simp
    rw [hlen] at hl ⊢
    rw [Utf.unsafe_size_8to32 ⟨false, false⟩ ssizeMax cs hc hl]
    rfl
  · obtain ⟨r, e, e2⟩ := Utf.unsafe_size_agrees_partial s d ⟨false, false⟩ ssizeMax src h hx
    have := Utf.transcode_complete s d ⟨false, false⟩ src h.units ssizeMax (by dsimp only; omega) (by simp)
    dsimp only at this
    rw [this] at e
    cases e
    rw [e2]
    rfl

/-- On well-formed strings the unsafe transcoders do what the others do. -/
theorem unsafeContent_lawful (L : Lawful D Rep) (s d : Cs) :
    (unsafeContent D s d).Lawful D Rep s.WellFormed (s.textIn d) := by
  have pivotU : ∀ (s : Enc) (J : Sbc.Impl), (Content.pivot D 32 (utfUnsafe s .utf32 ⟨false, false⟩)
      (Sbc.unsafeFromU32 J ⟨false, false, false⟩) (Sbc.unsafeFromU32Size J ⟨false, false, false⟩)).Lawful D Rep
      (Cs.utf s).WellFormed (Cs.textIn (.utf s) (.sbc J)) := by
    intro s J
    constructor
    · intro src h
      rw [textIn_utf, ← outs32 s src.length]
      exact pivot_prints L (sbc_charWise J false) (utfUnsafe_scripted s .utf32 src h)
        (oneEach_pieces s _ _ _ fun _ _ => trivial)
    · intro src h
      rw [textIn_utf, ← outs32 s src.length]
      exact pivot_size (by omega) (sbc_sizeWise J) (utfUnsafe_scripted s .utf32 src h)
        (oneEach_pieces s _ _ _ fun _ _ => trivial)
  have pivotS : ∀ (I : Sbc.Impl) (d : Enc), (Content.pivot D 32 (Sbc.unsafeToU32 I)
      (utfUnsafe .utf32 d ⟨false, false⟩) (Utf.unsafeTranscodeSize .utf32 d ⟨false, false⟩)).Lawful D Rep
      (Cs.sbc I).WellFormed (Cs.textIn (.sbc I) (.utf d)) := by
    intro I d
    constructor
    · rintro src ⟨hI, h⟩
      obtain ⟨ps, hS, ho, hE⟩ := sbcUnsafe_scripted (I := I) src
      rw [textIn_sbc, ← ho]
      exact pivot_prints L (unsafe_charWise d ⟨false, false⟩) hS
        (hE _ fun b hb => decode_scalar hI false b (h b hb).1)
    · rintro src ⟨hI, h⟩
      obtain ⟨ps, hS, ho, hE⟩ := sbcUnsafe_scripted (I := I) src
      rw [textIn_sbc, ← ho]
      exact pivot_size (by omega) (unsafe_sizeWise d false) hS
        (hE _ fun b hb => decode_scalar hI false b (h b hb).1)
  cases s with
  | utf s =>
    cases d with
    | utf d =>
      constructor
      · intro src h
        rw [textIn_utf_utf, ← outs_pieces s d src.length]
        have := direct_prints (τ := true) (D := D) (size := Utf.unsafeTranscodeSize s d ⟨false, false⟩) L (utfUnsafe_scripted s d src h)
        cases s <;> exact this
      · intro src h hl
        rw [textIn_utf_utf] at hl ⊢
        have := wf_size s d src h hl
        cases s <;> exact this
    | sbc J =>
      cases s with
      | utf8 => exact pivotU .utf8 J
      | utf16 => exact pivotU .utf16 J
      | utf32 =>
        have key : ∀ src, WellFormed .utf32 false src → Cs.textIn (.utf .utf32) (.sbc J) src = src.map (Sbc.encodeChar J) ∧
            ∀ c ∈ src, Scalar false c := by
          rintro src ⟨cs, hc, rfl⟩
          have e : cs.flatMap (encode .utf32) = cs := by
            show List.flatMap (fun c => [id c]) cs = cs
            rw [flatMap_single, List.map_id]
          rw [e]
          have hu : Units .utf32 cs := fun u hu => by have := (hc u hu).1; show u < 0x100000000; omega
          refine ⟨?_, hc⟩
          rw [textIn_utf, items_utf32 cs hu]
          show List.flatMap (fun c => [Sbc.encodeChar J c]) _ = _
          rw [flatMap_single, List.map_map, List.map_map]
          refine List.map_congr_left fun c hm => ?_
          simp only [Function.comp]
          rw [if_pos (hc c hm)]; rfl
        have hS : ∀ src, Scripted (Sbc.unsafeFromU32 J ⟨false, false, false⟩) src
            (src.map fun c => (⟨[Sbc.encodeChar J c], 1, if J.encode c < 0x100 then [] else [.unsupported c]⟩ : Piece)) .completed [] [] :=
          fun src => sbc_charWise J false src (fun _ _ => trivial)
        constructor
        · intro src h
          have := direct_prints (τ := true) (D := D) (size := Sbc.unsafeFromU32Size J ⟨false, false, false⟩) L (hS src)
          rw [outs_map, flatMap_single] at this
          rw [(key src h).1]
          exact this
        · intro src h hl
          rw [(key src h).1, List.length_map] at hl ⊢
          show (Sbc.unsafeFromU32Size J ⟨false, false, false⟩ ssizeMax src).map (·.size) = _
          have := sbc_sizeWise J ssizeMax src (fun _ _ => trivial) (by rw [flatMap_single, List.length_map]; omega)
          rw [this, flatMap_single]
          simp
  | sbc I =>
    cases d with
    | utf d =>
      cases d with
      | utf8 => exact pivotS I .utf8
      | utf16 => exact pivotS I .utf16
      | utf32 =>
        have key : ∀ src, Cs.textIn (.sbc I) (.utf .utf32) src = src.map I.decode := by
          intro src
          rw [textIn_sbc]
          show List.flatMap (fun c => [id c]) _ = _
          rw [flatMap_single, List.map_id]
        constructor
        · rintro src ⟨hI, h⟩
          obtain ⟨ps, hS, ho, hE⟩ := sbcUnsafe_scripted (I := I) src
          rw [key, ← ho]
          exact direct_prints (size := fun limit src => some (Sbc.plainSize limit src)) L hS
        · rintro src ⟨hI, h⟩ hl
          rw [key, List.length_map] at hl ⊢
          show some (Sbc.plainSize ssizeMax src).size = _
          unfold Sbc.plainSize
          rw [if_pos (by omega)]
    | sbc J =>
      constructor
      · rintro src ⟨hI, h⟩
        obtain ⟨ps, hS, ho, hE⟩ := sbcUnsafe_scripted (I := I) src
        rw [textIn_sbc, ← ho]
        exact pivot_prints L (sbc_charWise J false) hS (hE _ fun _ _ => trivial)
      · rintro src ⟨hI, h⟩
        obtain ⟨ps, hS, ho, hE⟩ := sbcUnsafe_scripted (I := I) src
        rw [textIn_sbc, ← ho]
        exact pivot_size (by omega) (sbc_sizeWise J) hS (hE _ fun _ _ => trivial)

/-! ## From a single-byte charset to itself -/

theorem unsafeSanitize_eq {I : Sbc.Impl} (f : Sbc.Flags) (room : Nat) (src : List Nat) (h : ∀ b ∈ src, I.isValid b = true) :
    Sbc.unsafeSanitize room src = Sbc.sanitize I f room src := by
  obtain ⟨r, e, done, todo, rfl, e1, e2, e3, e4, e5, e6⟩ := Sbc.sanitize_outcome I f room src
  rw [e]
  have hp : ∀ b ∈ done ++ todo, Sbc.byteProblem I b = .none := fun b hb => by unfold Sbc.byteProblem; rw [h b hb]; rfl
  have hn : ∀ (l : List Nat) (n : Nat), (∀ b ∈ l, b ∈ done ++ todo) → Sbc.notices (Sbc.byteProblem I) n l = [] := by
    intro l
    induction l with
    | nil => intro _ _; rfl
    | cons b t ih =>
      intro n hl
      unfold Sbc.notices
      rw [hp b (hl b (by simp)), ih _ fun c hc => hl c (by simp [hc])]
      rfl
  have hev : r.events = [] := by
    rw [e5]
    refine hn _ _ fun b hb => ?_
    rcases List.mem_append.1 hb with g | g
    · simp [g]
    · exact List.mem_append_right _ (List.mem_of_mem_take g)
  have ho : r.out = done := by
    rw [e1]
    conv_rhs => rw [← List.map_id done]
    exact List.map_congr_left fun b hb => by rw [if_pos (h b (by simp [hb]))]; rfl
  obtain ⟨rest, out, why, events⟩ := r
  dsimp only at e1 e2 e6 hev ho
  subst ho e2 hev
  unfold Sbc.unsafeSanitize Utf.bypassUnsafe
  cases why with
  | completed =>
    dsimp only at e6; subst e6
    rw [List.append_nil, if_pos e3]
    cases out <;> rfl
  | insufficient =>
    obtain ⟨rfl, c, t, rfl, -⟩ := e6
    rw [if_pos (by simp), if_neg (by simp), List.take_left, List.drop_left]; rfl
  | invalid => obtain ⟨c, t, rfl, g, -⟩ := e6; rw [hp c (by simp)] at g; cases g
  | unsupported => obtain ⟨c, t, rfl, g, -⟩ := e6; rw [hp c (by simp)] at g; cases g

/-- single_byte_charsets.hpp 2777–2789, utf.hpp: the unsafe functions of the transcoder of a single-byte charset to itself copy the
text -/
def bypassContent (D : Dest Nat σ) : Content σ :=
  .direct D Sbc.unsafeSanitize (fun limit src => some (Sbc.plainSize limit src))

theorem bypass_lawful (L : Lawful D Rep) (I : Sbc.Impl) :
    (bypassContent D).Lawful D Rep (Cs.sbc I).WellFormed (Cs.textIn (.sbc I) (.sbc I)) := by
  have key : ∀ src, (Cs.sbc I).WellFormed src → Cs.textIn (.sbc I) (.sbc I) src = src := by
    rintro src ⟨hI, h⟩
    rw [textIn_sbc]
    show List.flatMap (fun c => [Sbc.encodeChar I c]) _ = _
    rw [flatMap_single, List.map_map]
    conv_rhs => rw [← List.map_id src]
    refine List.map_congr_left fun b hb => ?_
    have := decode_eq hI (h b hb).1
    rw [if_pos (h b hb).2] at this
    exact this.symm
  constructor
  · rintro src h
    have hk := key src h
    obtain ⟨hI, h⟩ := h
    have h1 := Sbc.loop_scripted (fun b => if I.isValid b then b else 0x3F) (Sbc.byteProblem I) ⟨false, false, false⟩ src
      fun b _ => byte_noStop I false false b
    have hS := scripted_congr (f := Sbc.unsafeSanitize) (fun l => ∀ b ∈ l, I.isValid b = true)
      (fun _ n h b hb => h b (List.mem_of_mem_drop hb)) ?_ h1 (fun b hb => (h b hb).2)
    · have ho := outs_mapIdx (fun b => if I.isValid b then b else 0x3F)
        (fun i ch => (Sbc.byteProblem I ch).event (src.length - i) ch) src 0
      rw [hk]
      have e : src.map (fun b => if I.isValid b then b else 0x3F) = src := by
        conv_rhs => rw [← List.map_id src]
        exact List.map_congr_left fun b hb => by rw [if_pos (h b hb).2]; rfl
      rw [e] at ho
      have hP := direct_prints (τ := true) L (size := fun limit src => some (Sbc.plainSize limit src)) hS
      rwa [show outs _ = src from by simpa using ho] at hP
    · intro l hl room
      rw [unsafeSanitize_eq ⟨false, false, false⟩ room l hl]
      unfold Sbc.sanitize
      exact Sbc.loop_congr l room fun ch _ t => Sbc.actSanitize_eq I _ ch t
  · intro src h hl
    rw [key src h] at hl ⊢
    show (some (Sbc.plainSize ssizeMax src)).map _ = _
    unfold Sbc.plainSize
    rw [if_pos (by omega)]
    rfl

end Strf.Print

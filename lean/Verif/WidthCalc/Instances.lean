import Verif.WidthCalc.Source
/-! The UTF charsets and the single-byte charsets as sources for the width calculators. -/
namespace Strf.WidthCalc
open Strf.Utf (Enc Item Units Parses items extent)

/-- The UTF charsets (utf.hpp, Utf/Model.lean, Utf/ModelSize.lean, Utf/ModelEncode.lean). `signed`: the code unit type is
a signed integer. -/
def utf (signed : Bool) (e : Enc) : Source where
  toU32 n src := (Utf.transcode e .utf32 ⟨false, false⟩ n src).map fun r => (r.out, r.rest, decide (r.why = .insufficient))
  toU32Pos n src := (Utf.transcodeSize signed e .utf32 ⟨false, false⟩ n src).map (·.rest)
  count := Utf.countCodepoints e
  countFast := Utf.countCodepointsFast e
  decodeUnit := Utf.decodeUnit signed e

/-- The single-byte charsets (single_byte_charsets.hpp, Sbc/Model.lean); decode_unit is l.2967–2970. -/
def sbc (I : Sbc.Impl) : Source where
  toU32 n src := (Sbc.toU32 I ⟨false, false, false⟩ n src).map fun r => (r.out, r.rest, decide (r.why = .insufficient))
  toU32Pos n src := (Sbc.toU32Size I ⟨false, false, false⟩ n src).map (·.rest)
  count n src := some (Sbc.countCodepoints src n)
  countFast n src := some (Sbc.countCodepoints src n)
  decodeUnit := I.decode

/-- How a UTF is read. -/
def utfRead (e : Enc) (src : List Nat) : List (Nat × Nat) := (items e false src).map fun i => (i.char, i.size e)

/-- How a single-byte charset is read. -/
def sbcRead (I : Sbc.Impl) (src : List Nat) : List (Nat × Nat) := src.map fun b => (I.decode b, 1)

theorem ext_utf (e : Enc) (l : List Item) : ext (l.map fun i => (i.char, i.size e)) = extent e l := by
  induction l with
  | nil => rfl
  | cons i l ih => simp [ext, extent, ih]

theorem ext_sbc (I : Sbc.Impl) (l : List Nat) : ext (l.map fun b => (I.decode b, 1)) = l.length := by
  induction l with
  | nil => rfl
  | cons i l ih => simp [ext, ih]; omega

theorem parses_drop {e : Enc} {lax : Bool} {src : List Nat} {is : List Item} (h : Parses e lax src is) :
    ∀ n, Parses e lax (src.drop (extent e (is.take n))) (is.drop n) := by
  induction h with
  | nil => intro n; simp [extent]; exact .nil
  | @ch src c is hs hp ih =>
    intro n
    cases n with
    | zero => simp only [List.take_zero, extent, List.drop_zero]; exact .ch hs hp
    | succ n =>
      have := ih n
      rw [List.drop_drop] at this
      simpa [extent, Item.size] using this
  | @bad src n is h1 h2 h3 hp ih =>
    intro m
    cases m with
    | zero => simp only [List.take_zero, extent, List.drop_zero]; exact .bad h1 h2 h3 hp
    | succ m =>
      have := ih m
      rw [List.drop_drop] at this
      simpa [extent, Item.size] using this

theorem item_size_pos {e : Enc} {lax : Bool} {src : List Nat} {is : List Item} (h : Parses e lax src is) :
    ∀ i ∈ is, 1 ≤ i.size e := by
  induction h with
  | nil => simp
  | ch hs _ ih =>
    intro i hi
    rcases List.mem_cons.1 hi with rfl | g
    · exact Utf.encode_pos _ _
    · exact ih _ g
  | bad _ _ hm _ ih =>
    intro i hi
    rcases List.mem_cons.1 hi with rfl | g
    · exact hm.1
    · exact ih _ g

theorem render_utf32 (l : List Item) : Utf.render .utf32 l = l.map Item.char := by
  induction l with
  | nil => rfl
  | cons a l ih => rw [List.map_cons, ← ih]; rfl

theorem utf_transcode (e : Enc) (n : Nat) {src : List Nat} (h : Units e src) :
    ∃ r, Utf.transcode e .utf32 ⟨false, false⟩ n src = some r ∧
      r.out = ((items e false src).take n).map Item.char ∧
      r.rest = src.drop (extent e ((items e false src).take n)) ∧
      (r.why = .insufficient ↔ n < (items e false src).length) := by
  obtain ⟨r, er, done, todo, h1, h2, h3, h4, h5, h6, h7⟩ := Utf.transcode_outcome e .utf32 ⟨false, false⟩ n src h
  refine ⟨r, er, ?_⟩
  obtain ⟨rest, out, why, notes⟩ := r
  dsimp only at *
  rw [render_utf32] at h2
  have hl : out.length = done.length := by rw [h2]; simp
  have key : done = (items e false src).take n ∧ (why = .insufficient ↔ n < (items e false src).length) := by
    rw [h1]
    cases why with
    | completed =>
      dsimp only at h7; subst h7
      refine ⟨by rw [List.append_nil, List.take_of_length_le (by omega)], by simp; omega⟩
    | insufficient =>
      obtain ⟨i, todo', rfl, _, hlt⟩ := h7
      rw [render_utf32] at hlt
      simp only [Utf.encode, List.length_map, List.length_singleton] at hlt
      refine ⟨by rw [List.take_left' (by omega)], by simp; omega⟩
    | invalid => obtain ⟨hst, _⟩ := h7; cases hst
    | unsupported => exact h7.elim
  exact ⟨by rw [h2, key.1], by rw [h3, key.1], key.2⟩

theorem utf_lawful (signed : Bool) (e : Enc) : (utf signed e).Lawful (Units e) (utfRead e) where
  okDrop h n := h.drop n
  scalar h p hp := by
    obtain ⟨i, hi, rfl⟩ := List.mem_map.1 hp
    have hp := Utf.parses_items (lax := false) _ h
    exact ⟨(Utf.item_scalar hp i hi).1, item_size_pos hp i hi⟩
  whole h := by
    unfold utfRead
    rw [ext_utf, Utf.extent_parses (Utf.parses_items _ h)]
  drop {src} h n := by
    unfold utfRead
    rw [← List.map_take, ext_utf, ← List.map_drop]
    congr 1
    exact Utf.parses_unique (Utf.parses_items _ (h.drop _)) (parses_drop (Utf.parses_items _ h) n)
  toU32 {src} h n := by
    obtain ⟨r, e1, e2, e3, e4⟩ := utf_transcode e n h
    show (Utf.transcode e .utf32 ⟨false, false⟩ n src).map _ = _
    rw [e1]
    unfold utfRead
    simp only [Option.map_some, e2, e3]
    rw [← List.map_take, ext_utf, List.map_map, List.length_map]
    congr 3
    exact decide_eq_decide.2 e4
  toU32Pos {src} h n := by
    obtain ⟨r, e1, e2, e3, e4⟩ := utf_transcode e n h
    obtain ⟨r', e5, _, e6⟩ := Utf.transcode_size_exact_partial signed e .utf32 ⟨false, false⟩ n src h (by simp) (by simp)
    rw [e1] at e5; cases e5
    show (Utf.transcodeSize signed e .utf32 ⟨false, false⟩ n src).map _ = _
    rw [e6]
    unfold utfRead
    rw [← List.map_take, ext_utf, Option.map_some, e3]
  count {src} h n := by
    show Utf.countCodepoints e n src = _
    rw [Utf.countCodepoints_eq e n src h]
    unfold utfRead
    rw [← List.map_take, ext_utf, List.length_map]

theorem sbc_lawful (I : Sbc.Impl) (hI : I ∈ Sbc.all) : (sbc I).Lawful (fun src => ∀ b ∈ src, b < 256) (sbcRead I) where
  okDrop h n b hb := h b (List.mem_of_mem_drop hb)
  scalar h p hp := by
    obtain ⟨b, hb, rfl⟩ := List.mem_map.1 hp
    refine ⟨?_, Nat.le_refl 1⟩
    rcases (Sbc.good_all I hI).range b (h b hb) with g | g <;> dsimp only <;> omega
  whole h := ext_sbc I _
  drop {src} h n := by
    unfold sbcRead
    rw [← List.map_take, ext_sbc, ← List.map_drop, List.length_take]
    by_cases hn : n ≤ src.length
    · rw [Nat.min_eq_left hn]
    · rw [List.drop_of_length_le (by omega), List.drop_of_length_le (by omega)]
  toU32 {src} h n := by
    have e0 : Sbc.toU32 I ⟨false, false, false⟩ n src =
        Sbc.loop (Sbc.genAct I.decode (Sbc.byteProblem I) ⟨false, false, false⟩) n src :=
      Sbc.loop_congr src n fun ch hc t => Sbc.actToU32_eq (Sbc.good_all I hI) _ ch (h ch hc) t
    obtain ⟨r, e1, done, todo, h1, h2, h3, h4, h5, h6, h7⟩ :=
      Sbc.loop_outcome I.decode (Sbc.byteProblem I) ⟨false, false, false⟩ src n
    show (Sbc.toU32 I ⟨false, false, false⟩ n src).map _ = _
    rw [e0, e1]
    obtain ⟨rest, out, why, ev⟩ := r
    dsimp only at *
    have key : done = src.take n ∧ todo = src.drop n ∧ (why = .insufficient ↔ n < src.length) := by
      rw [h1]
      cases why with
      | completed =>
        dsimp only at h7; subst h7
        refine ⟨by rw [List.append_nil, List.take_of_length_le (by omega)],
          by rw [List.append_nil, List.drop_eq_nil_of_le (by omega)], by simp; omega⟩
      | insufficient =>
        obtain ⟨hl, ch, t, rfl, _⟩ := h7
        refine ⟨by rw [List.take_left' (by omega)], by rw [List.drop_left' (by omega)], by simp; omega⟩
      | invalid => obtain ⟨_, _, _, _, hst⟩ := h7; cases hst
      | unsupported => obtain ⟨_, _, _, _, hst⟩ := h7; cases hst
    obtain ⟨k1, k2, k3⟩ := key
    simp only [Option.map_some, h2, h3, k1, k2]
    unfold sbcRead
    rw [← List.map_take, ext_sbc, List.map_map, List.length_map, List.length_take]
    have : src.drop n = src.drop (min n src.length) := by
      by_cases hn : n ≤ src.length
      · rw [Nat.min_eq_left hn]
      · rw [List.drop_of_length_le (by omega), List.drop_of_length_le (by omega)]
    rw [this]
    congr 3
    exact decide_eq_decide.2 k3
  toU32Pos {src} h n := by
    show (Sbc.toU32Size I ⟨false, false, false⟩ n src).map _ = _
    unfold sbcRead Sbc.toU32Size Sbc.plainSize
    rw [← List.map_take, ext_sbc, List.length_take, if_neg (by simp)]
    simp only [Option.map_some]
    split_ifs with hn
    · rw [Nat.min_eq_right hn, List.drop_length]
    · rw [Nat.min_eq_left (by omega)]
  count {src} h n := by
    show some (Sbc.countCodepoints src n) = _
    unfold sbcRead Sbc.countCodepoints
    rw [← List.map_take, ext_sbc, List.length_map, List.length_take]
    split_ifs with hn
    · rw [Nat.min_eq_left (by omega)]
    · rw [Nat.min_eq_right (by omega), List.drop_length]

end Strf.WidthCalc

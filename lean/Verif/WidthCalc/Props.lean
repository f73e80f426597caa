import Verif.WidthCalc.Instances
/-!
# Properties C43 and C44: the width calculators

Contract (docs/ref_width.adoc, "WidthCalculator"): `str_width` is the width of the text if it is less than the limit, else
any value not less than the limit; `str_width_and_pos` finds the longest beginning whose width is not greater than the
limit.
-/
namespace Strf.WidthCalc
open Strf.Width
open Strf.Utf (Enc Item Units Parses items extent)

/-- docs/ref_width.adoc 76–86: `r` is a right answer of `str_width` for a text of width `w`; moreover it is not more than
`w`, and exceeds the limit by less than a column. -/
def StrWidthOk (w limit r : Int) : Prop :=
  (w < limit → r = w) ∧ (limit ≤ w → limit ≤ r) ∧ 0 ≤ r ∧ r ≤ w ∧ r ≤ wmax ∧ r < max 0 limit + 65536

theorem i32_id {x : Int} (h : -2147483648 ≤ x ∧ x ≤ 2147483647) : CInt.i32 x = x := by unfold CInt.i32; omega

/-! ### C43: fast_width -/

/-- fast_width: one column per code unit, cut at the limit. -/
theorem fast_str_width_exact (limit : Int) (hl : limit ≤ wmax) (src : List Nat) :
    fastStrWidth limit src = min (max 0 limit) (src.length * 65536) := by
  unfold wmax at hl
  unfold fastStrWidth
  have e : (if limit ≥ 0 then limit else 0) = max 0 limit := by omega
  rw [e]
  dsimp only
  split_ifs with h
  · unfold ofUInt
    rw [if_pos (by omega), i32_id (by omega)]
    omega
  · omega

theorem fast_str_width_ok (limit : Int) (hl : limit ≤ wmax) (src : List Nat) :
    StrWidthOk (src.length * 65536) limit (fastStrWidth limit src) := by
  rw [fast_str_width_exact limit hl]
  unfold StrWidthOk
  have : wmax = 2147483647 := rfl
  refine ⟨?_, ?_, ?_, ?_, ?_, ?_⟩ <;> omega

/-- fast_width: the longest beginning that fits, and its width. -/
theorem fast_str_width_and_pos_exact (limit : Int) (hl : limit ≤ wmax) (src : List Nat) :
    ∃ n, n ≤ src.length ∧ fastStrWidthPos limit src = ((n : Int) * 65536, src.drop n) ∧
      (n : Int) * 65536 ≤ max 0 limit ∧ ∀ m, n < m → m ≤ src.length → limit < (m : Int) * 65536 := by
  unfold wmax at hl
  have hf : nnFloor limit = max 0 limit / 65536 := by
    unfold nnFloor CInt.u16
    split_ifs with h <;> omega
  refine ⟨min src.length (max 0 limit / 65536).toNat, by omega, ?_, by omega, fun m h1 h2 => by omega⟩
  unfold fastStrWidthPos
  rw [hf]
  have hc : ∀ n : Int, 0 ≤ n → n ≤ 32767 → ofUInt n = n * 65536 := by
    intro n h0 h1
    unfold ofUInt
    rw [if_pos (by omega), i32_id (by omega)]
  split_ifs with h
  · rw [hc _ (by omega) (by omega), Nat.min_eq_left (by omega), List.drop_length]
  · rw [hc _ (by omega) (by omega), Nat.min_eq_right (by omega)]
    congr 1
    omega

example : fastStrWidth 196608 [0x61, 0x62] = 131072 ∧ fastStrWidth 98304 [0x61, 0x62] = 98304 ∧
    fastStrWidthPos 98304 [0x61, 0x62] = (65536, [0x62]) := by decide

/-! ### C43: width_as_u32len and width_as_fast_u32len -/

theorem nnCeil_eq (limit : Int) (hl : limit ≤ wmax) : nnCeil limit = (max 0 limit + 65535) / 65536 := by
  unfold wmax at hl
  unfold nnCeil CInt.u32
  dsimp only
  split_ifs with h <;> omega

theorem nnFloor_eq (limit : Int) (hl : limit ≤ wmax) : nnFloor limit = max 0 limit / 65536 := by
  unfold wmax at hl
  unfold nnFloor CInt.u16
  split_ifs with h <;> omega

theorem satCastI_eq (n : Int) (h0 : 0 ≤ n) (h1 : n ≤ 32768) : satCastI n = min (n * 65536) wmax := by
  unfold satCastI wmax
  by_cases h : n ≥ 0x8000
  · rw [if_pos h]; omega
  · rw [if_neg h, if_neg (by omega)]
    rw [i32_id (x := n) (by omega)]
    unfold CInt.u32
    rw [i32_id (by omega)]
    omega

theorem ofInt_eq (n : Int) (h0 : 0 ≤ n) (h1 : n ≤ 32767) : ofInt n = n * 65536 := by
  unfold ofInt
  rw [if_neg (by omega), if_neg (by omega)]
  unfold CInt.u16 CInt.u32
  rw [i32_id (by omega)]
  omega

theorem u32len_width {S : Source} {Ok : List Nat → Prop} {read : List Nat → List (Nat × Nat)} (L : S.Lawful Ok read)
    {src : List Nat} (h : Ok src) (limit : Int) (hl : limit ≤ wmax) :
    ∃ r, u32lenStrWidth S.count limit src = some r ∧ StrWidthOk ((read src).length * 65536) limit r := by
  unfold u32lenStrWidth
  rw [L.count h, nnCeil_eq limit hl, Option.map_some]
  refine ⟨_, rfl, ?_⟩
  have hm : wmax = 2147483647 := rfl
  rw [hm] at hl
  rw [satCastI_eq _ (by omega) (by omega), hm]
  unfold StrWidthOk
  refine ⟨?_, ?_, ?_, ?_, ?_, ?_⟩ <;> omega

theorem u32len_pos {S : Source} {Ok : List Nat → Prop} {read : List Nat → List (Nat × Nat)} (L : S.Lawful Ok read)
    {src : List Nat} (h : Ok src) (limit : Int) (hl : limit ≤ wmax) :
    ∃ n, n ≤ (read src).length ∧
      u32lenStrWidthPos S.count limit src = some ((n : Int) * 65536, src.drop (ext ((read src).take n))) ∧
      (n : Int) * 65536 ≤ max 0 limit ∧ ∀ m, n < m → m ≤ (read src).length → limit < (m : Int) * 65536 := by
  unfold u32lenStrWidthPos
  rw [L.count h, nnFloor_eq limit hl, Option.map_some]
  have hm : wmax = 2147483647 := rfl
  rw [hm] at hl
  refine ⟨min (max 0 limit / 65536).toNat (read src).length, by omega, ?_, by omega, fun m h1 h2 => by omega⟩
  rw [ofInt_eq _ (by omega) (by omega)]
  congr 3
  by_cases hc : (max 0 limit / 65536).toNat ≤ (read src).length
  · rw [Nat.min_eq_left hc]
  · rw [List.take_of_length_le (by omega), List.take_of_length_le (by omega)]

/-- C43: width_as_u32len on UTF text: one column per character or ill-formed subpart. -/
theorem u32len_utf (signed : Bool) (e : Enc) (src : List Nat) (h : Units e src) (limit : Int) (hl : limit ≤ wmax) :
    ∃ its, Parses e false src its ∧
      (∃ r, u32lenStrWidth (utf signed e).count limit src = some r ∧ StrWidthOk (its.length * 65536) limit r) ∧
      ∃ n, n ≤ its.length ∧
        u32lenStrWidthPos (utf signed e).count limit src = some ((n : Int) * 65536, src.drop (extent e (its.take n))) ∧
        (n : Int) * 65536 ≤ max 0 limit ∧ ∀ m, n < m → m ≤ its.length → limit < (m : Int) * 65536 := by
  refine ⟨items e false src, Utf.parses_items src h, ?_, ?_⟩
  · have := u32len_width (utf_lawful signed e) h limit hl
    simpa only [utfRead, List.length_map] using this
  · have := u32len_pos (utf_lawful signed e) h limit hl
    simpa only [utfRead, List.length_map, ← List.map_take, ext_utf] using this

/-- C43: width_as_fast_u32len gives the same results on well-formed text. -/
theorem fast_u32len_agrees (signed : Bool) (e : Enc) (src : List Nat) (h : Utf.WellFormed e false src) (limit : Int) :
    u32lenStrWidth (utf signed e).countFast limit src = u32lenStrWidth (utf signed e).count limit src ∧
    u32lenStrWidthPos (utf signed e).countFast limit src = u32lenStrWidthPos (utf signed e).count limit src := by
  unfold u32lenStrWidth u32lenStrWidthPos
  have : ∀ n, (utf signed e).countFast n src = (utf signed e).count n src :=
    fun n => Utf.count_codepoints_fast_agrees e n src h
  simp only [this, and_self]

/-- C43: both on single-byte charsets: one column per byte. -/
theorem u32len_sbc (I : Sbc.Impl) (hI : I ∈ Sbc.all) (src : List Nat) (h : ∀ b ∈ src, b < 256) (limit : Int)
    (hl : limit ≤ wmax) :
    (∃ r, u32lenStrWidth (sbc I).count limit src = some r ∧ StrWidthOk (src.length * 65536) limit r) ∧
    (∃ n, n ≤ src.length ∧ u32lenStrWidthPos (sbc I).count limit src = some ((n : Int) * 65536, src.drop n) ∧
        (n : Int) * 65536 ≤ max 0 limit ∧ ∀ m, n < m → m ≤ src.length → limit < (m : Int) * 65536) ∧
    (sbc I).countFast = (sbc I).count := by
  refine ⟨?_, ?_, rfl⟩
  · have := u32len_width (sbc_lawful I hI) h limit hl
    simpa only [sbcRead, List.length_map] using this
  · obtain ⟨n, h1, h2, h3⟩ := u32len_pos (sbc_lawful I hI) h limit hl
    simp only [sbcRead, List.length_map] at h1 h2 h3
    refine ⟨n, h1, ?_, h3⟩
    rw [h2, ← List.map_take, ext_sbc, List.length_take, Nat.min_eq_left h1]

example : u32lenStrWidth (utf false .utf8).count 98304 [0x61, 0xC3, 0xA9, 0x62] = some 131072 ∧
    u32lenStrWidthPos (utf false .utf8).count 196607 [0x61, 0xC3, 0xA9, 0x62] = some (131072, [0x62]) := by decide +kernel

/-! ### C44: std_width_calc -/

/-- C44: char_width of a UTF-32 unit, and the width of a code point within a text, are as documented. -/
theorem std_char_width_exact (c : Nat) :
    stdCharWidth (utf false .utf32) c = (columns c : Int) * 65536 ∧ (c ≤ 0x10FFFF → (classify c).2 = columns c) := by
  refine ⟨?_, classify_width c⟩
  show ofI16 (char32Width c) = _
  rw [char32Width_eq]
  unfold columns
  split <;> decide

/-- C44: str_width is min(limit, w), `w` the sum of the widths of the grapheme clusters of the text, whatever the length
of the text and of the clusters. UTF-8, UTF-16 and UTF-32. -/
theorem std_str_width_exact (signed : Bool) (e : Enc) (src : List Nat) (h : Units e src) (limit : Int)
    (hl : limit ≤ wmax) :
    ∃ its, Parses e false src its ∧
      stdStrWidth (utf signed e) limit src = some (min (max 0 limit) (textColumns (its.map Item.char) * 65536)) := by
  refine ⟨items e false src, Utf.parses_items src h, ?_⟩
  rw [strWidth_eq (utf_lawful signed e) h limit hl]
  unfold utfRead
  simp [cps, List.map_map, Function.comp_def]

/-- C44: str_width, the single-byte charsets. -/
theorem std_str_width_sbc (I : Sbc.Impl) (hI : I ∈ Sbc.all) (src : List Nat) (h : ∀ b ∈ src, b < 256) (limit : Int)
    (hl : limit ≤ wmax) :
    stdStrWidth (sbc I) limit src = some (min (max 0 limit) (textColumns (src.map I.decode) * 65536)) := by
  rw [strWidth_eq (sbc_lawful I hI) h limit hl]
  unfold sbcRead
  simp [cps, List.map_map, Function.comp_def]

/-- C44: the answer complies with the contract of width calculators. -/
theorem std_str_width_ok (w limit : Int) (hw : 0 ≤ w) (hl : limit ≤ wmax) : StrWidthOk w limit (min (max 0 limit) w) := by
  unfold StrWidthOk
  have hm : wmax = 2147483647 := rfl
  rw [hm] at hl ⊢
  refine ⟨?_, ?_, ?_, ?_, ?_, ?_⟩ <;> omega

/-- A text of 71 units of UTF-8: a family emoji, a flag, a Hangul syllable of three parts, then twenty times U+0301. -/
example : stdStrWidth (utf true .utf8) wmax
    ([0xF0, 0x9F, 0x91, 0xA9, 0xE2, 0x80, 0x8D, 0xF0, 0x9F, 0x91, 0xA6, 0xF0, 0x9F, 0x87, 0xA7, 0xF0, 0x9F, 0x87, 0xB7,
      0xE1, 0x84, 0x80, 0xE1, 0x85, 0xA1, 0xE1, 0x86, 0xA8, 0x65] ++ (List.replicate 40 [0xCC, 0x81]).flatten) =
    some 393216 := by decide +kernel

/-- Everything about `n` accepted code points of the text `s`, that what is accepted fits and is as long as possible. -/
def Longest (s : List Nat) (limit : Int) (n : Nat) : Prop :=
  (textColumns (s.take n) : Int) * 65536 ≤ limit ∧
  ∀ m, n < m → m ≤ s.length → limit < (textColumns (s.take m) : Int) * 65536

/-- In such a case no cluster is cut: there is a boundary after the accepted part. -/
theorem Longest.boundary {s : List Nat} {limit : Int} {n : Nat} (h : Longest s limit n) (hn : n < s.length) :
    WidthCalc.boundary ((s.take n).reverse.map gcb) (gcb s[n]) = true := by
  have h1 := h.1
  have h2 := h.2 (n + 1) (by omega) (by omega)
  have e : textColumns (s.take (n + 1)) = textColumns (s.take n) +
      (if WidthCalc.boundary ((s.take n).reverse.map gcb) (gcb s[n]) then columns s[n] else 0) := by
    unfold textColumns
    rw [List.take_add_one, List.getElem?_eq_getElem hn, columnsAfter_append]
    simp [columnsAfter]
  by_contra hb
  rw [if_neg hb] at e
  omega

theorem std_pos {S : Source} {Ok : List Nat → Prop} {read : List Nat → List (Nat × Nat)} (L : S.Lawful Ok read)
    {src : List Nat} (h : Ok src) (limit : Int) (hl : limit ≤ wmax) (h0 : 0 ≤ limit) :
    ∃ n, n ≤ (read src).length ∧
      stdStrWidthPos S limit src =
        some (min limit (textColumns (cps read src) * 65536), src.drop (ext ((read src).take n))) ∧
      (Longest (cps read src) limit n ∨
        (n % 32 = 0 ∧ 0 < n ∧ n < (read src).length ∧ (textColumns ((cps read src).take n) : Int) * 65536 = limit)) ∧
      ∀ k, 0 < k → k % 32 = 0 → k < (read src).length →
        (textColumns ((cps read src).take k) : Int) * 65536 = limit → n ≤ k := by
  obtain ⟨n, h1, h2, h3, h4⟩ := strWidthPosLoop_eq L limit hl h0 (src.length + 1) src limit 0 [] h .start h0
    (Int.le_refl _) (by have := L.length_le h; omega)
  refine ⟨n, h1, ?_, ?_, h4⟩
  · unfold stdStrWidthPos
    rw [h2]
    have : ((textColumns (cps read src) : Nat) : Int) = (columnsAfter [] (cps read src) : Nat) := rfl
    rw [this]
    congr 2
    omega
  · rcases h3 with g | g
    · exact .inl ⟨g.2.1, g.2.2⟩
    · exact .inr g

/-- C44, str_width_and_pos (part): for a limit that is not negative, what is accepted fits in the limit; it is the longest
beginning that does (and ends at a boundary between clusters) unless its width is exactly the limit and the number of its code
points is a multiple of 32; and the width returned is that of str_width. Missing: the position in that last case
(`std_pos_block_wrong`) and the width of what was accepted (`std_pos_width_wrong`), negative limits
(`std_pos_negative_wrong`). -/
theorem std_str_width_and_pos_partial (signed : Bool) (e : Enc) (src : List Nat) (h : Units e src) (limit : Int)
    (hl : limit ≤ wmax) (h0 : 0 ≤ limit) :
    ∃ its n, Parses e false src its ∧ n ≤ its.length ∧
      stdStrWidthPos (utf signed e) limit src =
        some (min limit (textColumns (its.map Item.char) * 65536), src.drop (extent e (its.take n))) ∧
      (textColumns ((its.map Item.char).take n) : Int) * 65536 ≤ limit ∧
      (¬ (n % 32 = 0 ∧ 0 < n ∧ n < its.length ∧ (textColumns ((its.map Item.char).take n) : Int) * 65536 = limit) →
        Longest (its.map Item.char) limit n) := by
  obtain ⟨n, h1, h2, h3, _⟩ := std_pos (utf_lawful signed e) h limit hl h0
  have e1 : cps (utfRead e) src = (items e false src).map Item.char := by
    unfold utfRead
    simp [cps, List.map_map, Function.comp_def]
  rw [e1] at h2 h3
  simp only [utfRead, List.length_map, ← List.map_take, ext_utf] at h1 h2 h3
  refine ⟨items e false src, n, Utf.parses_items src h, h1, h2, ?_, fun g => h3.resolve_right (by rw [List.map_take]; rw [← List.map_take] at g; simpa [List.map_take] using g)⟩
  rcases h3 with g | g
  · exact g.1
  · rw [← List.map_take]; omega

/-- C44, str_width_and_pos on single-byte charsets (part; missing is the same). -/
theorem std_str_width_and_pos_sbc_partial (I : Sbc.Impl) (hI : I ∈ Sbc.all) (src : List Nat) (h : ∀ b ∈ src, b < 256)
    (limit : Int) (hl : limit ≤ wmax) (h0 : 0 ≤ limit) :
    ∃ n, n ≤ src.length ∧
      stdStrWidthPos (sbc I) limit src = some (min limit (textColumns (src.map I.decode) * 65536), src.drop n) ∧
      (Longest (src.map I.decode) limit n ∨ (n % 32 = 0 ∧ 0 < n ∧ n < src.length ∧
        (textColumns ((src.map I.decode).take n) : Int) * 65536 = limit)) := by
  obtain ⟨n, h1, h2, h3, _⟩ := std_pos (sbc_lawful I hI) h limit hl h0
  have e1 : cps (sbcRead I) src = src.map I.decode := by
    unfold sbcRead
    simp [cps, List.map_map, Function.comp_def]
  rw [e1] at h2 h3
  simp only [sbcRead, List.length_map, ← List.map_take, ext_sbc, List.length_take] at h1 h2 h3
  refine ⟨n, h1, by rw [h2, Nat.min_eq_left h1], ?_⟩
  simpa only [List.map_take] using h3

/-- C44: texts of at most 32 code points. -/
theorem std_str_width_and_pos_short (signed : Bool) (e : Enc) (src : List Nat) (h : Units e src) (limit : Int)
    (hl : limit ≤ wmax) (h0 : 0 ≤ limit) :
    ∃ its n, Parses e false src its ∧ n ≤ its.length ∧ (its.length ≤ 32 →
      stdStrWidthPos (utf signed e) limit src =
        some (min limit (textColumns (its.map Item.char) * 65536), src.drop (extent e (its.take n))) ∧
      Longest (its.map Item.char) limit n) := by
  obtain ⟨its, n, h1, h2, h3, _, h4⟩ := std_str_width_and_pos_partial signed e src h limit hl h0
  exact ⟨its, n, h1, h2, fun hs => ⟨h3, h4 (by omega)⟩⟩

example : stdStrWidthPos (utf false .utf16) (3 * 65536) [0x61, 0x301, 0x6F22, 0x62] = some (3 * 65536, [0x62]) ∧
    textColumns [0x61, 0x301, 0x6F22] = 3 := by decide +kernel

/-- C44 fails at a block boundary: 32 letters, the last with an acute accent (33 code points), limit of 32 columns: the whole
text fits, but the accent is left out. -/
theorem std_pos_block_wrong :
    textColumns (List.replicate 32 0x65 ++ [0x301]) = 32 ∧
    stdStrWidthPos (utf false .utf8) (32 * 65536) (List.replicate 32 0x65 ++ [0xCC, 0x81]) =
      some (32 * 65536, [0xCC, 0x81]) := by
  decide +kernel

/-- C44 fails for the width: U+6F22 (two columns) does not fit in one column; nothing is accepted, but the width returned is
one column (the doc of WidthCalculator asks for the width of what was accepted, 0). -/
theorem std_pos_width_wrong :
    stdStrWidthPos (utf false .utf8) 65536 [0xE6, 0xBC, 0xA2] = some (65536, [0xE6, 0xBC, 0xA2]) ∧
    textColumns [] = 0 := by decide +kernel

/-- C44 fails for negative limits: the width returned is the negative limit, for every text that is not empty. -/
theorem std_pos_negative_wrong (signed : Bool) (e : Enc) (src : List Nat) (h : Units e src) (hne : src ≠ [])
    (limit : Int) (hl : limit < 0) (hm : wmin ≤ limit) :
    stdStrWidthPos (utf signed e) limit src = some (limit, src) := by
  have L := utf_lawful signed e
  have hne' : utfRead e src ≠ [] := by
    intro g
    have := L.whole h
    rw [g] at this
    simp only [ext] at this
    exact hne (List.length_eq_zero_iff.1 this.symm)
  obtain ⟨p, t, hp⟩ := List.exists_cons_of_ne_nil hne'
  unfold stdStrWidthPos strWidthPosLoop
  rw [L.toU32 h, hp]
  simp only [Option.bind_some, List.take_succ_cons, List.map_cons]
  have hc : p.1 ≤ 0x10FFFF := (L.scalar h p (by rw [hp]; simp)).1
  obtain ⟨st, _, k⟩ := calcFunc_cons (rp := true) (pos := 0) (t := (t.take 31).map Prod.fst) (width := limit)
    (before := []) (state := 0) .start hc
  have e0 : boundary (([] : List Nat).map gcb) (gcb p.1) = true := rfl
  rw [if_pos e0, if_pos (by omega), if_neg (by simp), if_pos (by omega)] at k
  rw [k]
  dsimp only
  rw [if_pos (by simp)]
  unfold Width.sub CInt.chk32
  have h1 : wmin = -2147483648 := rfl
  rw [if_pos (by omega)]
  simp only [Option.bind_some]
  rw [if_pos (by simp)]
  simp only [L.toU32Pos h, List.take_zero, ext, List.drop_zero, Option.map_some]
  simp

end Strf.WidthCalc

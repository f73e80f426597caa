import Verif.Locale.Model
import Verif.Utf.Props
import Verif.Sbc.Props
import Verif.Numpunct.Props
import Mathlib.Tactic.SplitIfs
/-!
# The facet obtained from the locale (C71, C72)
-/
namespace Strf.Locale
open Strf.Numpunct Strf.Numpunct.Spec

/-! ### The first character of a string -/

theorem high_bit {b : Nat} (h : b < 256) : b &&& 0x80 = 0 ↔ b < 0x80 := by
  have : ∀ b : Fin 256, b.1 &&& 0x80 = 0 ↔ b.1 < 0x80 := by decide +kernel
  exact this ⟨b, h⟩

theorem decode_utf8 {b : Nat} {t : List Nat} (h : ∀ x ∈ b :: t, x < 256) :
    decodeFirst utf8Decoder (b :: t) = some (Utf.dec .utf8 false b t).item.char := by
  have hu : Utf.Units .utf8 (b :: t) := h
  obtain ⟨r, e, done, todo, h1, h2, h3, h4, h5, h6, h7⟩ :=
    Utf.transcode_outcome .utf8 .utf32 ⟨false, false⟩ 1 (b :: t) hu
  unfold decodeFirst utf8Decoder
  have e' : Utf.transcode8to32 ⟨false, false⟩ 1 (b :: t) = some r := e
  rw [e']
  rw [Utf.items] at h1
  have hne : done ≠ [] := by
    rintro rfl
    rw [List.nil_append] at h1
    cases hw : r.why <;> rw [hw] at h7 <;> dsimp only at h7
    · rw [← h1] at h7; cases h7
    · obtain ⟨i, t', _, _, hl⟩ := h7
      simp [Utf.render, Utf.encode] at hl
    · cases h7.1
  obtain ⟨i, ds, rfl⟩ := List.exists_cons_of_ne_nil hne
  rw [List.cons_append] at h1
  have hi := (List.cons.inj h1).1
  simp only [Option.map_some]
  rw [h2, ← hi]
  simp [Utf.render, Utf.encode]

theorem decode_byte {I : Sbc.Impl} (hI : I ∈ Sbc.all) {b : Nat} {t : List Nat} (h : ∀ x ∈ b :: t, x < 256) :
    decodeFirst (sbcDecoder I) (b :: t) = some (if I.isValid b then I.decode b else 0xFFFD) := by
  obtain ⟨r, e, done, todo, h1, h2, h3, h4, h5, h6, h7⟩ := Sbc.to_u32_outcome I hI ⟨false, false, false⟩ 1 (b :: t) h
  unfold decodeFirst sbcDecoder
  rw [e]
  have hne : done ≠ [] := by
    rintro rfl
    rw [List.nil_append] at h1
    cases hw : r.why <;> rw [hw] at h7 <;> dsimp only at h7
    · rw [← h1] at h7; cases h7
    · simp at h7
    · obtain ⟨_, _, _, _, h⟩ := h7; cases h
    · obtain ⟨_, _, _, _, h⟩ := h7; cases h
  obtain ⟨i, ds, rfl⟩ := List.exists_cons_of_ne_nil hne
  rw [List.cons_append] at h1
  obtain ⟨rfl, _⟩ := List.cons.inj h1
  simp only [Option.map_some]
  rw [h2]
  simp

/-- The tables of the code, for the three charsets. -/
theorem table_agrees : ∀ p ∈ [(Sbc.iso_8859_1, Sbc.pub_iso_8859_1), (Sbc.iso_8859_3, Sbc.pub_iso_8859_3),
    (Sbc.iso_8859_15, Sbc.pub_iso_8859_15)], ∀ b, 0x80 ≤ b → b < 256 →
    (if p.1.isValid b then p.1.decode b else 0xFFFD) = (Sbc.meaning p.2 b).getD 0xFFFD ∧
    Sbc.meaning p.2 b ≠ some 0xFFFD := by
  have key : ∀ p ∈ [(Sbc.iso_8859_1, Sbc.pub_iso_8859_1), (Sbc.iso_8859_3, Sbc.pub_iso_8859_3),
      (Sbc.iso_8859_15, Sbc.pub_iso_8859_15)], ∀ b : Fin 256, 0x80 ≤ b.1 →
      (if p.1.isValid b then p.1.decode b else 0xFFFD) = (Sbc.meaning p.2 b).getD 0xFFFD ∧
      Sbc.meaning p.2 b ≠ some 0xFFFD := by decide +kernel
  exact fun p hp b h1 h2 => key p hp ⟨b, h2⟩ h1

/-- Each string begins in exactly one way. -/
theorem begins_exists (codeset : String) (s : List Nat) : ∃ q, Begins codeset s q := by
  rcases s with _ | ⟨b, t⟩
  · exact ⟨_, .missing⟩
  by_cases hb : b < 0x80
  · exact ⟨_, .ascii hb⟩
  by_cases hu : codeset = "UTF-8"
  · by_cases hs : ∃ c, Utf.Starts .utf8 false (b :: t) c
    · obtain ⟨c, hs⟩ := hs
      exact ⟨_, .utf8 (by omega) hu hs⟩
    · exact ⟨_, .utf8Bad (by omega) hu (fun c h => hs ⟨c, h⟩)⟩
  · by_cases ht : ∃ table, (codeset, table) ∈ tables
    · obtain ⟨table, ht⟩ := ht
      cases hm : Sbc.meaning table b with
      | none => exact ⟨_, .byteBad (by omega) ht hm⟩
      | some c => exact ⟨_, .byte (by omega) ht hm⟩
    · exact ⟨_, .unknown (by omega) hu (fun table h => ht ⟨table, h⟩)⟩

/-- The decoder found for a codeset, applied to a string that begins with a byte over 0x7F. -/
theorem decoder_begins {codeset : String} {b : Nat} {t : List Nat} {q : Sym} (h : Begins codeset (b :: t) q)
    (hs : ∀ x ∈ b :: t, x < 256) (hb : 0x80 ≤ b) :
    match getDecoder codeset with
    | none => q = .unknown
    | some d => decodeFirst d (b :: t) = some q.point ∧ q ≠ .unknown ∧ q ≠ .missing := by
  cases h with
  | ascii h => omega
  | utf8 _ hc hst =>
    subst hc
    rw [getDecoder, if_pos rfl]
    refine ⟨?_, by simp, by simp⟩
    rw [decode_utf8 hs]
    have := Utf.dec_ok (lax := false) (e := .utf8) hs
    unfold Utf.TokOk at this
    cases hi : (Utf.dec .utf8 false b t).item with
    | ch c' =>
      rw [hi] at this
      have := Utf.starts_unique this.2.2.2 hst
      subst this
      rfl
    | bad n => rw [hi] at this; exact absurd hst (this.2.1 _)
  | utf8Bad _ hc hst =>
    subst hc
    rw [getDecoder, if_pos rfl]
    refine ⟨?_, by simp, by simp⟩
    rw [decode_utf8 hs]
    have := Utf.dec_ok (lax := false) (e := .utf8) hs
    unfold Utf.TokOk at this
    cases hi : (Utf.dec .utf8 false b t).item with
    | ch c' => rw [hi] at this; exact absurd this.2.2.2 (hst _)
    | bad n => rfl
  | byte _ hc hst =>
    simp only [tables, List.mem_cons, Prod.mk.injEq, List.not_mem_nil, or_false] at hc
    have hb2 : b < 256 := hs b (by simp)
    rcases hc with ⟨rfl, rfl⟩ | ⟨rfl, rfl⟩ | ⟨rfl, rfl⟩
    · refine ⟨?_, by simp, by simp⟩
      rw [decode_byte (by simp [Sbc.all]) hs, (table_agrees (Sbc.iso_8859_1, Sbc.pub_iso_8859_1) (by simp) b hb hb2).1, hst]
      rfl
    · refine ⟨?_, by simp, by simp⟩
      rw [decode_byte (by simp [Sbc.all]) hs, (table_agrees (Sbc.iso_8859_3, Sbc.pub_iso_8859_3) (by simp) b hb hb2).1, hst]
      rfl
    · refine ⟨?_, by simp, by simp⟩
      rw [decode_byte (by simp [Sbc.all]) hs, (table_agrees (Sbc.iso_8859_15, Sbc.pub_iso_8859_15) (by simp) b hb hb2).1, hst]
      rfl
  | byteBad _ hc hst =>
    simp only [tables, List.mem_cons, Prod.mk.injEq, List.not_mem_nil, or_false] at hc
    have hb2 : b < 256 := hs b (by simp)
    rcases hc with ⟨rfl, rfl⟩ | ⟨rfl, rfl⟩ | ⟨rfl, rfl⟩
    · refine ⟨?_, by simp, by simp⟩
      rw [decode_byte (by simp [Sbc.all]) hs, (table_agrees (Sbc.iso_8859_1, Sbc.pub_iso_8859_1) (by simp) b hb hb2).1, hst]
      rfl
    · refine ⟨?_, by simp, by simp⟩
      rw [decode_byte (by simp [Sbc.all]) hs, (table_agrees (Sbc.iso_8859_3, Sbc.pub_iso_8859_3) (by simp) b hb hb2).1, hst]
      rfl
    · refine ⟨?_, by simp, by simp⟩
      rw [decode_byte (by simp [Sbc.all]) hs, (table_agrees (Sbc.iso_8859_15, Sbc.pub_iso_8859_15) (by simp) b hb hb2).1, hst]
      rfl
  | unknown _ hu hc =>
    have h1 : codeset ≠ "ISO-8859-1" := fun h => hc Sbc.pub_iso_8859_1 (by simp [tables, h])
    have h2 : codeset ≠ "ISO-8859-3" := fun h => hc Sbc.pub_iso_8859_3 (by simp [tables, h])
    have h3 : codeset ≠ "ISO-8859-15" := fun h => hc Sbc.pub_iso_8859_15 (by simp [tables, h])
    rw [getDecoder, if_neg hu, if_neg h1, if_neg h2, if_neg h3]

theorem makePoint_ok {codeset : String} {s : List Nat} {q : Sym} (hs : CString s) (h : Begins codeset s q) :
    makePoint codeset s = some q.point := by
  rcases s with _ | ⟨b, t⟩
  · cases h; rfl
  have hlt : ∀ x ∈ b :: t, x < 256 := fun x hx => (hs x hx).2
  rw [makePoint]
  by_cases hb : b < 0x80
  · rw [if_pos ((high_bit (hlt b (by simp))).2 hb)]
    cases h <;> first | rfl | omega
  · rw [if_neg (fun h => hb ((high_bit (hlt b (by simp))).1 h))]
    have := decoder_begins h hlt (by omega)
    cases hd : getDecoder codeset with
    | none => rw [hd] at this; dsimp only at this ⊢; rw [this]; rfl
    | some d => rw [hd] at this; exact this.1

/-- What the thousands separator does to the facet. -/
theorem makeSep_ok {codeset : String} {s : List Nat} {q : Sym} (hs : CString s) (h : Begins codeset s q) (f : Facet) :
    makeSep codeset s f = some (match q.separator with
      | none => f.setGrouping emptyWord
      | some c => f.setSep c) := by
  rcases s with _ | ⟨b, t⟩
  · cases h; rfl
  have hlt : ∀ x ∈ b :: t, x < 256 := fun x hx => (hs x hx).2
  rw [makeSep]
  by_cases hb : b < 0x80
  · rw [if_pos ((high_bit (hlt b (by simp))).2 hb)]
    cases h <;> first | omega | (simp only [Sym.separator]; rw [if_neg (by omega)])
  · rw [if_neg (fun h => hb ((high_bit (hlt b (by simp))).1 h))]
    have := decoder_begins h hlt (by omega)
    cases hd : getDecoder codeset with
    | none => rw [hd] at this; dsimp only at this ⊢; rw [this]; rfl
    | some d =>
      rw [hd] at this
      dsimp only at this ⊢
      rw [this.1]
      cases q with
      | missing => exact absurd rfl this.2.2
      | unknown => exact absurd rfl this.2.1
      | unreadable => rfl
      | char c =>
        simp only [Sym.point, Sym.separator, Option.map_some]
        split_ifs <;> rfl

/-! ### The grouping -/

theorem split_none (n : Nat) (rep : Bool) : split [] rep n = [n] := by
  unfold split
  cases n <;> simp [splitFrom, groupSize]

/-- `lconv::grouping` read by `digits_grouping(const char*)`, CHAR_MAX apart. -/
theorem grouping_string (charMax : Nat) (hm : charMax = 127 ∨ charMax = 255) (s : List Nat) (hs : CString s)
    (hr : Representable (groupsOf charMax s).1) (hx : charMax = 127 → 127 ∉ s) :
    ∃ gs rep, Valid gs rep ∧ ctorStr s = ctor2 (args gs rep) ∧
      (∀ n, split gs rep n = split (groupsOf charMax s).1 (groupsOf charMax s).2 n) ∧
      ((groupsOf charMax s).1 ≠ [] ↔ gs ≠ []) := by
  -- the shape of the string
  have shape : ∀ s : List Nat, CString s → (charMax = 127 → 127 ∉ s) →
      (groupsOf charMax s = (s, true)) ∨ ∃ gs rest, s = gs ++ 255 :: rest ∧ charMax = 255 ∧ groupsOf charMax s = (gs, false) := by
    intro s
    induction s with
    | nil => intro _ _; exact .inl rfl
    | cons g t ih =>
      intro hs hx
      rw [groupsOf]
      by_cases hg : g = charMax
      · rw [if_pos hg]
        right
        rcases hm with hm | hm
        · exact absurd (by rw [hg, hm]; simp) (hx hm)
        · exact ⟨[], t, by rw [hg, hm]; rfl, hm, rfl⟩
      · rw [if_neg hg]
        rcases ih (fun b hb => hs b (by simp [hb])) (fun h hh => hx h (by simp [hh])) with h | ⟨gs, rest, h1, h2, h3⟩
        · left; rw [h]
        · right; exact ⟨g :: gs, rest, by rw [h1]; rfl, h2, by rw [h3]⟩
  rcases shape s hs hx with h | ⟨gs, rest, h1, h2, h3⟩
  · rw [h] at hr ⊢
    dsimp only at hr ⊢
    by_cases hne : s = []
    · subst hne
      exact ⟨[], false, by decide, by decide, fun n => by rw [split_none, split_none], by simp⟩
    · obtain ⟨gs', v, e, _, hsp⟩ := cstr_repeat s hne ⟨hr.1, hr.2, fun h => absurd h hne⟩
      refine ⟨gs', true, v, e, hsp, fun _ h => ?_, fun _ => hne⟩
      have := v.2.2 h
      cases this
  · rw [h3] at hr ⊢
    dsimp only at hr ⊢
    exact ⟨gs, false, ⟨hr.1, hr.2, fun _ => rfl⟩, by rw [h1]; exact cstr_no_repeat gs rest 255 (by omega) ⟨hr.1, hr.2, fun _ => rfl⟩,
      fun n => rfl, Iff.rfl⟩

/-- What the locale's grouping amounts to in the facet `f`: with `none` there are no separators; with a character, the
separator is that character and any number of digits is split as the sizes `gs` say. -/
def Groups (f : Facet) (gs : List Nat) (rep : Bool) (sep : Option Nat) : Prop :=
  ∃ gs' rep', Valid gs' rep' ∧ f.getGrouping = ctor2 (args gs' rep') ∧
    match sep with
    | none => ∀ n, split gs' rep' n = [n]
    | some c => (∀ n, split gs' rep' n = split gs rep n) ∧ (gs ≠ [] → f.getSep = c)

/-- C71, on POSIX systems, for every locale: no undefined behaviour; the decimal point is the first character of
`lconv::decimal_point`, read in the codeset of the locale (U+FFFD if there is none); the digits are grouped as
`lconv::grouping` says and separated by the first character of `lconv::thousands_sep`, and not grouped if there is no
such character. Missing from the full statement: groupings with CHAR_MAX where `char` is signed
(`locale_char_max_wrong`), and groupings that `digits_grouping` cannot represent. -/
theorem locale_numpunct_exact_partial (c : Conv) (hc : c.Ok) (charMax : Nat) (hm : charMax = 127 ∨ charMax = 255)
    (hr : Representable (groupsOf charMax c.grouping).1) (hx : charMax = 127 → 127 ∉ c.grouping)
    (p q : Sym) (hp : Begins c.codeset c.decimalPoint p) (hq : Begins c.codeset c.thousandsSep q) :
    ∃ f, localeNumpunct c = some f ∧ f.getPoint = p.point ∧
      Groups f (groupsOf charMax c.grouping).1 (groupsOf charMax c.grouping).2 q.separator := by
  obtain ⟨gs, rep, v, e, hsp, hne⟩ := grouping_string charMax hm c.grouping hc.2.2 hr hx
  have hem := (ctor_word gs rep v).2.1
  rw [← e] at hem
  unfold localeNumpunct makeNumpunct
  rw [makePoint_ok hc.1 hp, Option.bind_some]
  dsimp only
  by_cases hg : gs = []
  · subst hg
    rw [hem, if_pos (by rfl)]
    refine ⟨_, rfl, rfl, [], rep, v, e, ?_⟩
    have h0 : (groupsOf charMax c.grouping).1 = [] := by
      by_contra h
      exact hne.1 h rfl
    cases q.separator with
    | none => exact fun n => split_none n rep
    | some c => exact ⟨hsp, fun h => absurd h0 h⟩
  · rw [hem, if_neg (by cases gs <;> simp at hg ⊢), makeSep_ok hc.2.1 hq]
    cases hs : q.separator with
    | none => exact ⟨_, rfl, rfl, [], false, by decide, rfl, fun n => split_none n false⟩
    | some c => exact ⟨_, rfl, rfl, gs, rep, v, e, hsp, fun _ => rfl⟩

/-- Whatever the strings of the locale are, the call has no undefined behaviour and the grouping is one that can be
represented. -/
theorem locale_numpunct_safe (c : Conv) (hc : c.Ok) :
    ∃ f gs rep, localeNumpunct c = some f ∧ Valid gs rep ∧ f.getGrouping = ctor2 (args gs rep) := by
  obtain ⟨gs, rep, v, e⟩ := obtainable_valid _ (.cstr c.grouping (fun b hb => (hc.2.2 b hb).2))
  obtain ⟨p, hp⟩ := begins_exists c.codeset c.decimalPoint
  obtain ⟨q, hq⟩ := begins_exists c.codeset c.thousandsSep
  unfold localeNumpunct makeNumpunct
  rw [makePoint_ok hc.1 hp, Option.bind_some]
  dsimp only
  split
  · exact ⟨_, gs, rep, rfl, v, e⟩
  · rw [makeSep_ok hc.2.1 hq]
    cases q.separator with
    | none => exact ⟨_, [], false, rfl, by decide, rfl⟩
    | some c => exact ⟨_, gs, rep, rfl, v, e⟩

/-- Indian English in UTF-8, with an Arabic decimal separator: hypotheses and conclusion. -/
example : let c : Conv := ⟨"UTF-8", [0xD9, 0xAB], [0xE2, 0x80, 0xAF], [3, 2]⟩
    c.Ok ∧ Begins c.codeset c.decimalPoint (.char 0x66B) ∧ Begins c.codeset c.thousandsSep (.char 0x202F) ∧
      Representable (groupsOf 127 c.grouping).1 ∧ groupsOf 127 c.grouping = ([3, 2], true) ∧
      split [3, 2] true 8 = [3, 2, 2, 1] ∧
      (localeNumpunct c).map (fun f => (f.getPoint, f.getSep)) = some (0x66B, 0x202F) := by
  refine ⟨⟨by decide, by decide, by decide⟩, .utf8 (by decide) rfl (Utf.starts8 (n := 2) ⟨by decide, .inr (by decide)⟩ (by decide)),
    .utf8 (by decide) rfl (Utf.starts8 (n := 3) ⟨by decide, .inr (by decide)⟩ (by decide)), by decide, by decide, by decide, by decide +kernel⟩

/-- The full statement of C71 is false where `char` is signed: there CHAR_MAX is 127, and `digits_grouping(const char*)`
takes it for a group of 127 digits, so that a locale that wants one group of three digits gets none. -/
theorem locale_char_max_wrong :
    let c : Conv := ⟨"UTF-8", [46], [44], [3, 127]⟩
    c.Ok ∧ groupsOf 127 c.grouping = ([3], false) ∧ split [3] false 7 = [3, 4] ∧
      Begins c.codeset c.thousandsSep (.char 44) ∧
      (localeNumpunct c).map (fun f => f.getGrouping) = some (ctor2 (args [] false)) ∧ split [] false 7 = [7] := by
  refine ⟨⟨by decide, by decide, by decide⟩, by decide, by decide, .ascii (by decide), by decide +kernel, by decide⟩

/-! ### Windows -/

theorem cur_append {a : Nat} {s t : List Nat} : cur ((a :: s) ++ t) = a := rfl

/-- one round of the loop over a number and what follows it -/
theorem winLoop_numeral {s : List Nat} {g : Nat} (h : Numeral s g) (t : List Nat) (ht : s.length = 2 ∨ isDigit (cur t) = false)
    (cr : Creator) :
    winLoop cr (s ++ t) =
      if g = 0 then (if cur t ≠ 0 then emptyWord else cr.finish)
      else if cur t = 0 then (cr.push g).finishNoMoreSep
      else if cur t ≠ 59 then emptyWord
      else winLoop (cr.push g) (t.drop 1) := by
  rw [winLoop]
  cases h with
  | one ha =>
    have h1 : cur ([48 + g] ++ t) = 48 + g := rfl
    have h2 : ([48 + g] ++ t).drop 1 = t := rfl
    rw [h1, h2, if_neg (by simp [notDigit]; omega)]
    rw [or_iff_right (by simp)] at ht
    simp only [ht, Nat.add_sub_cancel_left, Bool.false_eq_true, if_false]
  | two ha hb =>
    rename_i a b
    have h1 : cur ([48 + a, 48 + b] ++ t) = 48 + a := rfl
    have h2 : ([48 + a, 48 + b] ++ t).drop 1 = [48 + b] ++ t := rfl
    have h3 : cur ([48 + b] ++ t) = 48 + b := rfl
    have h4 : ([48 + b] ++ t).drop 1 = t := rfl
    have h5 : isDigit (48 + b) = true := by simp [isDigit]; omega
    rw [h1, h2, if_neg (by simp [notDigit]; omega)]
    dsimp only
    rw [h3, h4, h5]
    simp only [if_true, Nat.add_sub_cancel_left, Nat.mul_comm a 10]

theorem isDigit_end : isDigit (cur []) = false := by decide
theorem isDigit_semi (t : List Nat) : isDigit (cur (59 :: t)) = false := by simp [cur, isDigit]

/-- The loop on a string of the documented form. -/
theorem winLoop_ok {s gs : List Nat} {rep : Bool} (h : WinGroups s gs rep) (cr : Creator) :
    winLoop cr s = if rep then ((gs.map Int.ofNat).foldl Creator.push cr).finish
      else ((gs.map Int.ofNat).foldl Creator.push cr).finishNoMoreSep := by
  induction h generalizing cr with
  | last hn hg =>
    have := winLoop_numeral hn [] (.inr isDigit_end) cr
    rw [List.append_nil] at this
    rw [this, if_neg (by omega)]
    rfl
  | zero hn =>
    have := winLoop_numeral hn [] (.inr isDigit_end) cr
    rw [List.append_nil] at this
    rw [this, if_pos rfl]
    rfl
  | more hn hg ht ih =>
    rename_i s t gs g rep
    rw [winLoop_numeral hn (59 :: t) (.inr (isDigit_semi t)) cr, if_neg (by omega), if_neg (by simp [cur]), if_neg (by simp [cur])]
    exact ih _

/-- A string is of the documented form, or the loop gives the empty grouping. -/
theorem winLoop_total (s : List Nat) (hz : 0 ∉ s) : (∃ gs rep, WinGroups s gs rep) ∨ ∀ cr, winLoop cr s = emptyWord := by
  induction hn : s.length using Nat.strongRecOn generalizing s with
  | _ n ih =>
    subst hn
    rcases s with _ | ⟨a, t⟩
    · right; intro cr; rw [winLoop]; rfl
    by_cases ha : notDigit a = true
    · right; intro cr; rw [winLoop]; rw [show cur (a :: t) = a from rfl, if_pos ha]
    have ha' : 48 ≤ a ∧ a ≤ 57 := by simp [notDigit] at ha; omega
    -- the number
    obtain ⟨s1, t1, g, e, hnum, hd⟩ : ∃ s1 t1 g, a :: t = s1 ++ t1 ∧ Numeral s1 g ∧
        (s1.length = 2 ∨ isDigit (cur t1) = false) := by
      have e1 : 48 + (a - 48) = a := by omega
      have one : Numeral [a] (a - 48) := by
        have := Numeral.one (a := a - 48) (by omega)
        rwa [e1] at this
      rcases t with _ | ⟨b, r⟩
      · exact ⟨[a], [], a - 48, rfl, one, .inr isDigit_end⟩
      by_cases hb : isDigit b = true
      · have hb' : 48 ≤ b ∧ b ≤ 57 := by simpa [isDigit] using hb
        have e2 : 48 + (b - 48) = b := by omega
        have two := Numeral.two (a := a - 48) (b := b - 48) (by omega) (by omega)
        rw [e1, e2] at two
        exact ⟨[a, b], r, _, rfl, two, .inl rfl⟩
      · exact ⟨[a], b :: r, a - 48, rfl, one, .inr (by rw [show cur (b :: r) = b from rfl]; simpa using hb)⟩
    have hpos : 0 < s1.length := by cases hnum <;> simp
    have hlen : (a :: t).length = s1.length + t1.length := by rw [e, List.length_append]
    rw [e] at hz ⊢
    have hz1 : 0 ∉ t1 := fun h => hz (by simp [h])
    have hcur : cur t1 = 0 ↔ t1 = [] := by
      rcases t1 with _ | ⟨x, r⟩
      · simp [cur]
      · simp only [cur, reduceCtorEq, iff_false]
        rintro rfl
        exact hz1 (by simp)
    by_cases hg : g = 0
    · subst hg
      by_cases ht : t1 = []
      · subst ht
        left
        rw [List.append_nil]
        exact ⟨[], true, .zero hnum⟩
      · right
        intro cr
        rw [winLoop_numeral hnum t1 hd cr, if_pos rfl, if_pos (fun h => ht (hcur.1 h))]
    · by_cases ht : t1 = []
      · subst ht
        left
        rw [List.append_nil]
        exact ⟨[g], false, .last hnum (by omega)⟩
      by_cases h59 : cur t1 = 59
      · rcases t1 with _ | ⟨x, t2⟩
        · exact absurd rfl ht
        have : x = 59 := h59
        subst this
        rcases ih t2.length (by rw [hlen]; simp; omega) t2 (fun h => hz1 (by simp [h])) rfl with ⟨gs, rep, h⟩ | h
        · exact .inl ⟨g :: gs, rep, .more hnum (by omega) h⟩
        · right
          intro cr
          rw [winLoop_numeral hnum _ hd cr, if_neg hg, if_neg (by simp [cur]), if_neg (by simp [cur])]
          exact h _
      · right
        intro cr
        rw [winLoop_numeral hnum t1 hd cr, if_neg hg, if_neg (fun h => ht (hcur.1 h)), if_pos h59]

/-- C72, the grouping, for every string: of the documented form, it means its group sizes (equal groups at the end are
merged, which changes no splitting) if they can be represented; anything else is the empty grouping. -/
theorem win_grouping_exact (s : List Nat) (hz : 0 ∉ s) :
    (∀ gs rep, WinGroups s gs rep → Representable gs → ∃ gs' rep', Valid gs' rep' ∧
      parseWinGrouping s = ctor2 (args gs' rep') ∧ ∀ n, split gs' rep' n = split gs rep n) ∧
    (∀ gs rep, WinGroups s gs rep → ¬ Representable gs → parseWinGrouping s = ctor2 (args [] false)) ∧
    ((∀ gs rep, ¬ WinGroups s gs rep) → parseWinGrouping s = ctor2 (args [] false)) := by
  have hne : ∀ gs rep, WinGroups s gs rep → s ≠ [] := by
    intro gs rep h hs
    have hnn : ∀ {g : Nat}, Numeral [] g → False := fun h => by cases h
    subst hs
    generalize hx : ([] : List Nat) = x at h
    cases h with
    | last h _ => subst hx; exact hnn h
    | zero h => subst hx; exact hnn h
    | more h _ _ => simp at hx
  refine ⟨fun gs rep h hr => ?_, fun gs rep h hr => ?_, fun h => ?_⟩
  · rw [parseWinGrouping, if_neg (hne _ _ h), winLoop_ok h]
    cases rep with
    | false =>
      have v : Valid gs false := ⟨hr.1, hr.2, fun _ => rfl⟩
      exact ⟨gs, false, v, (creator_no_more_sep gs v).1, fun n => rfl⟩
    | true =>
      by_cases hg : gs = []
      · subst hg
        exact ⟨[], false, by decide, creator_no_groups.1, fun n => by rw [split_none, split_none]⟩
      · obtain ⟨_, gs', v, e, _, hs⟩ := creator_finish gs hg ⟨hr.1, hr.2, fun h => absurd h hg⟩
        exact ⟨gs', true, v, e, hs⟩
  · rw [parseWinGrouping, if_neg (hne _ _ h), winLoop_ok h]
    have := creator_invalid (gs.map Int.ofNat) (by
      unfold Representable at hr
      by_cases hl : gs.length ≤ 6
      · right
        have : ¬ ∀ g ∈ gs, 1 ≤ g ∧ g ≤ 31 := fun h => hr ⟨hl, h⟩
        simp only [not_forall] at this
        obtain ⟨g, hg, hh⟩ := this
        exact ⟨Int.ofNat g, List.mem_map_of_mem hg, by simp; omega⟩
      · left; simpa using hl)
    cases rep with
    | false => exact this.2.2
    | true => exact this.2.1
  · rw [parseWinGrouping]
    split
    · rfl
    · rcases winLoop_total s hz with ⟨gs, rep, h'⟩ | h'
      · exact absurd h' (h gs rep)
      · exact h' _

theorem decodeFirst16_ok {s : List Nat} (hs : ∀ x ∈ s, 1 ≤ x ∧ x < 0x10000) {q : Sym} (h : Begins16 s q) :
    decodeFirst16 s = q.point := by
  rcases s with _ | ⟨b, t⟩
  · cases h with
    | missing => rfl
    | char h =>
      obtain ⟨_, hp, _⟩ := h
      exact absurd (List.prefix_nil.1 hp) (Utf.encode_ne_nil _ _)
    | bad h _ => exact absurd rfl h
  have hu : Utf.Units .utf16 (b :: t) := fun x hx => (hs x hx).2
  have hb := hs b (by simp)
  have key : decodeFirst16 (b :: t) = (Utf.dec .utf16 false b t).item.char := by
    unfold decodeFirst16
    rw [show cur (b :: t) = b from rfl]
    dsimp only
    rw [if_pos (by omega)]
    show _ = (Utf.dec16 false b t).item.char
    unfold Utf.dec16
    cases hsur : Utf.isSurrogate b with
    | false => rfl
    | true =>
      simp only [Bool.not_true, Bool.false_eq_true, if_false, if_true, Bool.not_false]
      rcases t with _ | ⟨c, r⟩
      · have : Utf.isLow (cur (([b] : List Nat).drop 1)) = false := by
          show Utf.isLow 0 = false
          decide
        rw [this]
        simp [Utf.Item.char]
      · rw [show cur ((b :: c :: r).drop 1) = c from rfl]
        cases h1 : Utf.isHigh b <;> cases h2 : Utf.isLow c <;> simp [Utf.Item.char, Utf.fromPair, h2]
  rw [key]
  have := Utf.dec_ok (lax := false) (e := .utf16) hu
  unfold Utf.TokOk at this
  cases h with
  | char hst =>
    cases hi : (Utf.dec .utf16 false b t).item with
    | ch c' =>
      rw [hi] at this
      have := Utf.starts_unique this.2.2.2 hst
      subst this
      rfl
    | bad n => rw [hi] at this; exact absurd hst (this.2.1 _)
  | bad _ hst =>
    cases hi : (Utf.dec .utf16 false b t).item with
    | ch c' => rw [hi] at this; exact absurd this.2.2.2 (hst _)
    | bad n => rfl

theorem begins16_exists (s : List Nat) : ∃ q, Begins16 s q := by
  by_cases hn : s = []
  · subst hn; exact ⟨_, .missing⟩
  by_cases hs : ∃ c, Utf.Starts .utf16 false s c
  · obtain ⟨c, hs⟩ := hs
    exact ⟨_, .char hs⟩
  · exact ⟨_, .bad hn (fun c h => hs ⟨c, h⟩)⟩

theorem begins16_separator {s : List Nat} {q : Sym} (h : Begins16 s q) :
    q.separator = if q.point = 0xFFFD then none else some q.point := by
  cases h <;> rfl

/-- C72, on Windows, for all strings that the system may give for a locale: the decimal point and the separator are the
first characters of theirs, and the digits are grouped as LOCALE_SGROUPING says, but not at all if there is no
separator, or the grouping is malformed or cannot be represented. -/
theorem locale_win_exact (g d t : List Nat) (hg : 0 ∉ g) (hd : ∀ x ∈ d, 1 ≤ x ∧ x < 0x10000)
    (ht : ∀ x ∈ t, 1 ≤ x ∧ x < 0x10000) (p q : Sym) (hp : Begins16 d p) (hq : Begins16 t q) :
    (localeNumpunctWin g d t).getPoint = p.point ∧
    (∀ gs rep, WinGroups g gs rep → Representable gs → Groups (localeNumpunctWin g d t) gs rep q.separator) ∧
    (∀ gs rep, WinGroups g gs rep → ¬ Representable gs → Groups (localeNumpunctWin g d t) [] rep none) ∧
    ((∀ gs rep, ¬ WinGroups g gs rep) → Groups (localeNumpunctWin g d t) [] false none) := by
  have e1 := decodeFirst16_ok hd hp
  have e2 := decodeFirst16_ok ht hq
  have e3 := begins16_separator hq
  obtain ⟨w1, w2, w3⟩ := win_grouping_exact g hg
  have eg : (localeNumpunctWin g d t).getGrouping = if q.point = 0xFFFD then emptyWord else parseWinGrouping g := by
    rw [← e2]; rfl
  have es : (localeNumpunctWin g d t).getSep = q.point := by rw [← e2]; rfl
  have none_ok : ∀ gs rep, (localeNumpunctWin g d t).getGrouping = emptyWord → Groups (localeNumpunctWin g d t) gs rep none :=
    fun gs rep h => ⟨[], false, by decide, h, fun n => split_none n false⟩
  refine ⟨e1, fun gs rep h hr => ?_, fun gs rep h hr => ?_, fun h => ?_⟩
  · by_cases hz : q.point = 0xFFFD
    · rw [if_pos hz] at eg e3
      rw [e3]
      exact none_ok gs rep eg
    · rw [if_neg hz] at eg e3
      rw [e3]
      obtain ⟨gs', rep', v, e, hs⟩ := w1 gs rep h hr
      exact ⟨gs', rep', v, by rw [eg, e], hs, fun _ => es⟩
  · apply none_ok
    rw [eg, w2 gs rep h hr]
    split <;> rfl
  · apply none_ok
    rw [eg, w3 h]
    split <;> rfl

/-- "3;2;0", and strings that are not of the documented form. -/
example : WinGroups [51, 59, 50, 59, 48] [3, 2] true ∧ parseWinGrouping [51, 59, 50, 59, 48] = ctor2 (args [3, 2] true) ∧
    WinGroups [49, 50] [12] false ∧ parseWinGrouping [51, 59] = emptyWord ∧
    Begins16 [0xD835, 0xDFD8] (.char 0x1D7D8) ∧ Begins16 [0xD835, 0x2E] .unreadable := by
  refine ⟨.more (s := [51]) (.one (a := 3) (by decide)) (by decide) (.more (s := [50]) (.one (a := 2) (by decide)) (by decide)
    (.zero (.one (a := 0) (by decide)))), by decide +kernel, .last (.two (a := 1) (b := 2) (by decide) (by decide)) (by decide),
    by decide +kernel, .char ?_, .bad (by decide) ?_⟩
  · have := Utf.dec_ok (lax := false) (e := .utf16) (b0 := 0xD835) (t := [0xDFD8]) (by decide)
    exact this.2.2.2
  · have := Utf.dec_ok (lax := false) (e := .utf16) (b0 := 0xD835) (t := [0x2E]) (by decide)
    exact this.2.1

end Strf.Locale

import Verif.Utf.Bits
/-! # Reference decoders: what one loop iteration reads, and that it is what the specification says -/
namespace Strf.Utf

/-- An item and the number of source units it takes. -/
structure Tok where
  item : Item
  n : Nat
deriving DecidableEq, Repr

/-- Reference decoder of one UTF-8 item. -/
def dec8 (lax : Bool) (ch0 : Nat) (t : List Nat) : Tok :=
  if ch0 < 0x80 then ⟨.ch ch0, 1⟩
  else if 0xC0 = ch0 &&& 0xE0 then
    match t with
    | [] => ⟨.bad 1, 1⟩
    | ch1 :: _ => if ch0 > 0xC1 ∧ isCont ch1 then ⟨.ch (utf8Decode2 ch0 ch1), 2⟩ else ⟨.bad 1, 1⟩
  else if 0xE0 = ch0 then
    match t with
    | [] => ⟨.bad 1, 1⟩
    | ch1 :: t1 =>
      if ch1 &&& 0xE0 = 0xA0 then
        match t1 with
        | [] => ⟨.bad 2, 2⟩
        | ch2 :: _ =>
          if isCont ch2 then ⟨.ch (((ch1 &&& 0x3F) <<< 6) ||| (ch2 &&& 0x3F)), 3⟩ else ⟨.bad 2, 2⟩
      else ⟨.bad 1, 1⟩
  else if 0xE0 = ch0 &&& 0xF0 then
    match t with
    | [] => ⟨.bad 1, 1⟩
    | ch1 :: t1 =>
      if isCont ch1 ∧ first2of3Valid (first2of3 ch0 ch1) lax then
        match t1 with
        | [] => ⟨.bad 2, 2⟩
        | ch2 :: _ =>
          if isCont ch2 then ⟨.ch ((first2of3 ch0 ch1 <<< 6) ||| (ch2 &&& 0x3F)), 3⟩ else ⟨.bad 2, 2⟩
      else ⟨.bad 1, 1⟩
  else
    match t with
    | [] => ⟨.bad 1, 1⟩
    | ch1 :: t1 =>
      if isCont ch1 ∧ first2of4Valid (first2of4 ch0 ch1) then
        match t1 with
        | [] => ⟨.bad 2, 2⟩
        | ch2 :: t2 =>
          if isCont ch2 then
            match t2 with
            | [] => ⟨.bad 3, 3⟩
            | ch3 :: _ =>
              if isCont ch3 then ⟨.ch (last2of4 (first2of4 ch0 ch1) ch2 ch3), 4⟩ else ⟨.bad 3, 3⟩
          else ⟨.bad 2, 2⟩
      else ⟨.bad 1, 1⟩

/-- Reference decoder of one UTF-16 item. -/
def dec16 (lax : Bool) (ch : Nat) (t : List Nat) : Tok :=
  let lone : Tok := if !lax then ⟨.bad 1, 1⟩ else ⟨.ch ch, 1⟩
  if isSurrogate ch then
    match t with
    | [] => lone
    | ch2 :: _ => if isHigh ch ∧ isLow ch2 then ⟨.ch (fromPair ch ch2), 2⟩ else lone
  else ⟨.ch ch, 1⟩

/-- Reference decoder of one UTF-32 item. -/
def dec32 (lax : Bool) (ch : Nat) (_t : List Nat) : Tok :=
  if ch ≥ 0x110000 ∨ (lax = false ∧ isSurrogate ch) then ⟨.bad 1, 1⟩ else ⟨.ch ch, 1⟩

def dec : Enc → Bool → Nat → List Nat → Tok
  | .utf8 => dec8
  | .utf16 => dec16
  | .utf32 => dec32

/-! ## Values decoded and their encodings -/

section leaves
variable {b0 b1 b2 b3 : Nat} {lax : Bool}

theorem leaf2 (h0 : b0 < 256) (h1 : b1 < 256) (c0 : 0xC0 = b0 &&& 0xE0) (c1 : b0 > 0xC1 ∧ isCont b1) :
    utf8Decode2 b0 b1 = (b0 - 0xC0) * 64 + (b1 - 0x80) ∧ 0xC2 ≤ b0 ∧ b0 < 0xE0 ∧ 0x80 ≤ b1 ∧ b1 < 0xC0 := by
  rw [andE0_C0 h0] at c0; rw [isCont_iff h1] at c1; rw [utf8Decode2_eq]; omega

theorem leafE0 (h1 : b1 < 256) (h2 : b2 < 256) (c1 : b1 &&& 0xE0 = 0xA0) (c2 : isCont b2) :
    ((b1 &&& 0x3F) <<< 6) ||| (b2 &&& 0x3F) = (b1 - 0x80) * 64 + (b2 - 0x80) ∧
      0xA0 ≤ b1 ∧ b1 < 0xC0 ∧ 0x80 ≤ b2 ∧ b2 < 0xC0 := by
  rw [andE0_A0 h1] at c1; rw [isCont_iff h2] at c2; rw [e0_eq]; omega

theorem leaf3a (h0 : b0 < 256) (h1 : b1 < 256) (e : ¬ 0xE0 = b0) (c0 : 0xE0 = b0 &&& 0xF0)
    (c1 : isCont b1 ∧ first2of3Valid (first2of3 b0 b1) lax) :
    first2of3 b0 b1 = (b0 - 0xE0) * 64 + (b1 - 0x80) ∧ 0xE1 ≤ b0 ∧ b0 < 0xF0 ∧ 0x80 ≤ b1 ∧ b1 < 0xC0 ∧
      (lax = true ∨ ¬ (b0 = 0xED ∧ 0xA0 ≤ b1)) := by
  rw [andF0_E0 h0] at c0; rw [isCont_iff h1, first2of3Valid_iff, first2of3_eq] at c1; rw [first2of3_eq]
  refine ⟨by omega, by omega, by omega, by omega, by omega, ?_⟩
  rcases c1.2 with h | h
  · exact Or.inl h
  · right; omega

theorem leaf4a (h0 : b0 < 256) (h1 : b1 < 256)
    (c1 : isCont b1 ∧ first2of4Valid (first2of4 b0 b1)) :
    first2of4 b0 b1 = (b0 - 0xF0) * 64 + (b1 - 0x80) ∧ 0xF0 ≤ b0 ∧ b0 < 0xF5 ∧ 0x80 ≤ b1 ∧ b1 < 0xC0 ∧
      (b0 = 0xF0 → 0x90 ≤ b1) ∧ (b0 = 0xF4 → b1 < 0x90) := by
  rw [isCont_iff h1, first2of4Valid_iff, first2of4_eq] at c1; rw [first2of4_eq]
  have hx := xorF0 h0
  by_cases h : 0xF0 ≤ b0
  · rw [hx.1 h] at c1 ⊢; omega
  · have := hx.2 (by omega); omega

end leaves

/-- What a decoder must deliver at `ch :: t`. -/
def TokOk (e : Enc) (lax : Bool) (src : List Nat) (k : Tok) : Prop :=
  match k.item with
  | .ch c => k.n = (encode e c).length ∧ Scalar lax c ∧ encode e c = src.take k.n ∧ Starts e lax src c
  | .bad n => k.n = n ∧ (∀ c, ¬ Starts e lax src c) ∧ MaximalSubpart e lax src n

theorem Initial.mono {e : Enc} {lax : Bool} {l m : List Nat} (h : Initial e lax m) (p : l <+: m) :
    Initial e lax l := by
  obtain ⟨c, hc, q⟩ := h; exact ⟨c, hc, p.trans q⟩

theorem encode_ne_nil (e : Enc) (c : Nat) : encode e c ≠ [] := by
  cases e <;> simp only [encode] <;> (try split_ifs) <;> simp

theorem encode_pos (e : Enc) (c : Nat) : 0 < (encode e c).length :=
  List.length_pos_iff.2 (encode_ne_nil e c)

/-- A convenient way to establish maximality. -/
theorem maximal_of {e : Enc} {lax : Bool} {src : List Nat} {n : Nat} (h1 : 1 ≤ n) (h2 : n ≤ src.length)
    (h3 : n = 1 ∨ Initial e lax (src.take n))
    (h4 : n + 1 ≤ src.length → ¬ Initial e lax (src.take (n + 1))) : MaximalSubpart e lax src n := by
  refine ⟨h1, h2, h3, fun m hm hl hi => h4 (by omega) (hi.mono ?_)⟩
  exact List.take_prefix_take_left (by omega)

/-- Facts about the initial parts of UTF-8 encodings. -/
theorem enc8_head {lax : Bool} {c b0 : Nat} {t : List Nat} (hc : Scalar lax c) (h : encode .utf8 c <+: b0 :: t) :
    (b0 < 0x80 ∧ c = b0) ∨
    (0xC2 ≤ b0 ∧ b0 < 0xE0 ∧ ∃ b1 t1, t = b1 :: t1 ∧ 0x80 ≤ b1 ∧ b1 < 0xC0) ∨
    (0xE0 ≤ b0 ∧ b0 < 0xF0 ∧ ∃ b1 b2 t1, t = b1 :: b2 :: t1 ∧ 0x80 ≤ b1 ∧ b1 < 0xC0 ∧ 0x80 ≤ b2 ∧ b2 < 0xC0 ∧
      (b0 = 0xE0 → 0xA0 ≤ b1) ∧ (lax = true ∨ ¬ (b0 = 0xED ∧ 0xA0 ≤ b1))) ∨
    (0xF0 ≤ b0 ∧ b0 < 0xF5 ∧ ∃ b1 b2 b3 t1, t = b1 :: b2 :: b3 :: t1 ∧ 0x80 ≤ b1 ∧ b1 < 0xC0 ∧
      0x80 ≤ b2 ∧ b2 < 0xC0 ∧ 0x80 ≤ b3 ∧ b3 < 0xC0 ∧ (b0 = 0xF0 → 0x90 ≤ b1) ∧ (b0 = 0xF4 → b1 < 0x90)) := by
  obtain ⟨hc1, hc2⟩ := hc
  obtain ⟨s, hs⟩ := h
  simp only [encode] at hs
  split_ifs at hs <;> simp only [List.cons_append, List.nil_append, List.cons.injEq] at hs
  · left; omega
  · right; left; exact ⟨by omega, by omega, _, s, hs.2.symm, by omega, by omega⟩
  · right; right; left
    refine ⟨by omega, by omega, _, _, s, hs.2.symm, by omega, by omega, by omega, by omega, by omega, ?_⟩
    rcases hc2 with h | h
    · exact Or.inl h
    · right; unfold IsSurr at h; omega
  · right; right; right
    exact ⟨by omega, by omega, _, _, _, s, hs.2.symm, by omega, by omega, by omega, by omega, by omega, by omega,
      by omega, by omega⟩

theorem init8_1 {lax : Bool} {b0 : Nat} (h : Initial .utf8 lax [b0]) :
    b0 < 0x80 ∨ (0xC2 ≤ b0 ∧ b0 < 0xF5) := by
  obtain ⟨c, ⟨hc1, hc2⟩, s, hs⟩ := h
  simp only [encode] at hs
  split_ifs at hs <;> simp only [List.cons_append, List.nil_append, List.cons.injEq] at hs <;> omega

theorem init8_2 {lax : Bool} {b0 b1 : Nat} (h : Initial .utf8 lax [b0, b1]) :
    0xC2 ≤ b0 ∧ b0 < 0xF5 ∧ 0x80 ≤ b1 ∧ b1 < 0xC0 ∧
      (b0 = 0xE0 → 0xA0 ≤ b1) ∧ (lax = true ∨ ¬ (b0 = 0xED ∧ 0xA0 ≤ b1)) ∧ (b0 = 0xF0 → 0x90 ≤ b1) ∧
      (b0 = 0xF4 → b1 < 0x90) := by
  obtain ⟨c, ⟨hc1, hc2⟩, s, hs⟩ := h
  simp only [encode] at hs
  have hc3 : lax = true ∨ ¬ (0xD800 ≤ c ∧ c ≤ 0xDFFF) := hc2
  split_ifs at hs <;>
    simp only [List.cons_append, List.nil_append, List.cons.injEq, reduceCtorEq, and_false] at hs
  · omega
  · rcases hc3 with h | h
    · exact ⟨by omega, by omega, by omega, by omega, by omega, .inl h, by omega, by omega⟩
    · refine ⟨by omega, by omega, by omega, by omega, by omega, .inr (by omega), by omega, by omega⟩
  · omega

theorem init8_3 {lax : Bool} {b0 b1 b2 : Nat} (h : Initial .utf8 lax [b0, b1, b2]) :
    0xE0 ≤ b0 ∧ b0 < 0xF5 ∧ 0x80 ≤ b2 ∧ b2 < 0xC0 := by
  obtain ⟨c, ⟨hc1, hc2⟩, s, hs⟩ := h
  simp only [encode] at hs
  split_ifs at hs <;>
    simp only [List.cons_append, List.nil_append, List.cons.injEq, reduceCtorEq, and_false] at hs <;> omega

theorem init8_4 {lax : Bool} {b0 b1 b2 b3 : Nat} (h : Initial .utf8 lax [b0, b1, b2, b3]) :
    0xF0 ≤ b0 ∧ b0 < 0xF5 ∧ 0x80 ≤ b3 ∧ b3 < 0xC0 := by
  obtain ⟨c, ⟨hc1, hc2⟩, s, hs⟩ := h
  simp only [encode] at hs
  split_ifs at hs <;>
    simp only [List.cons_append, List.nil_append, List.cons.injEq, reduceCtorEq, and_false] at hs <;> omega

theorem enc8_2 {b0 b1 : Nat} (h : 0xC2 ≤ b0 ∧ b0 < 0xE0 ∧ 0x80 ≤ b1 ∧ b1 < 0xC0) :
    encode .utf8 ((b0 - 0xC0) * 64 + (b1 - 0x80)) = [b0, b1] := by
  simp only [encode]
  rw [if_neg (by omega), if_pos (by omega)]
  simp only [List.cons.injEq, and_true]; omega

theorem enc8_3 {b0 b1 b2 : Nat} (h : 0xE0 ≤ b0 ∧ b0 < 0xF0 ∧ 0x80 ≤ b1 ∧ b1 < 0xC0 ∧ 0x80 ≤ b2 ∧ b2 < 0xC0 ∧
    (b0 = 0xE0 → 0xA0 ≤ b1)) :
    encode .utf8 (((b0 - 0xE0) * 64 + (b1 - 0x80)) * 64 + (b2 - 0x80)) = [b0, b1, b2] := by
  simp only [encode]
  rw [if_neg (by omega), if_neg (by omega), if_pos (by omega)]
  simp only [List.cons.injEq, and_true]; omega

theorem enc8_4 {b0 b1 b2 b3 : Nat} (h : 0xF0 ≤ b0 ∧ b0 < 0xF5 ∧ 0x80 ≤ b1 ∧ b1 < 0xC0 ∧ 0x80 ≤ b2 ∧ b2 < 0xC0 ∧
    0x80 ≤ b3 ∧ b3 < 0xC0 ∧ (b0 = 0xF0 → 0x90 ≤ b1)) :
    encode .utf8 ((((b0 - 0xF0) * 64 + (b1 - 0x80)) * 64 + (b2 - 0x80)) * 64 + (b3 - 0x80)) = [b0, b1, b2, b3] := by
  simp only [encode]
  rw [if_neg (by omega), if_neg (by omega), if_neg (by omega)]
  simp only [List.cons.injEq, and_true]; omega

end Strf.Utf

import Verif.Float.HexMake
import Verif.Float.Decode
import Verif.Dest.Props
/-
C56–C61: floating-point numbers. What they must look like is in Spec.lean (`shape`, `number`, `arranged`, `special`,
`hexText`), applied here to the members of the formats:

* `finite`, `finiteWidth` (Finite.lean): `arranged … (number … (shape …))` of a decimal number;
* `specialText`, `specialWidth` (Special.lean): infinity and NaN;
* `hexFormatted`, `hexWidth` (HexPrint.lean): the hexadecimal notation.

The decimal number `m10 · 10^e10` printed for a binary number (`decode toDecimal`) is the subject of Dragonbox/Props.lean.
-/
namespace Strf.Float
open Strf.Float.Spec hiding Notation
open Strf.IntDigits Strf.IntDigits.Spec Strf.Numpunct Strf.Numpunct.Spec Strf.Print
open Strf.IntPrinter (b2n b2i AlignFmt LayoutOf)
open Strf.IntPrinter.Spec (Showsign Align Layout before times)
open Strf.Dest (Dest Lawful Prints)
open Strf.Dragonbox (toDecimal)

variable {σ : Type} {D : Dest Nat σ} {Rep : σ → List Nat → Prop} {C : Charset σ}

/-! ### the fields of a floating-point number -/

/-- C62: the bits of a floating-point number are split into sign, exponent and mantissa as IEEE 754 says: every word is
`sign · 2^(e+m) + exponent · 2^m + mantissa`, and these are what the code extracts. -/
theorem fields_exact (T : FloatT) (s e m : Nat) (hs : s ≤ 1) (he : e < 2 ^ T.eSize) (hm : m < 2 ^ T.mSize) :
    let bits := s * 2 ^ (T.eSize + T.mSize) + e * 2 ^ T.mSize + m
    bits < 2 ^ T.bits ∧ signBit T bits = decide (s = 1) ∧ expBits T bits = e ∧ manBits T bits = m := by
  intro bits
  have hb : bits = s * 2 ^ (T.eSize + T.mSize) + e * 2 ^ T.mSize + m := rfl
  have h2 : s = 0 ∨ s = 1 := by omega
  clear_value bits
  unfold signBit expBits manBits
  cases T <;> simp only [FloatT.eSize, FloatT.mSize, FloatT.bits] at * <;>
    refine ⟨by omega, ?_, by omega, by omega⟩ <;> rcases h2 with rfl | rfl <;>
    apply decide_eq_decide.mpr <;> omega

/-- every word is of that form -/
theorem fields_surj (T : FloatT) (bits : Nat) (h : bits < 2 ^ T.bits) :
    bits = (b2n (signBit T bits)) * 2 ^ (T.eSize + T.mSize) + expBits T bits * 2 ^ T.mSize + manBits T bits := by
  unfold signBit expBits manBits b2n
  cases T <;> simp only [FloatT.eSize, FloatT.mSize, FloatT.bits] at * <;> simp only [Nat.reducePow, Nat.reduceAdd] at *
  · by_cases hh : bits / 2147483648 = 0 <;> simp [hh] <;> omega
  · by_cases hh : bits / 9223372036854775808 = 0 <;> simp [hh] <;> omega

/-- C62: which numbers are decoded as infinity, NaN, zero, and that the rest is converted to decimal. -/
theorem decode_exact (T : FloatT) (bits : Nat) :
    (decode toDecimal T bits).negative = signBit T bits ∧
    ((decode toDecimal T bits).infinity = true ↔ expBits T bits = 2 ^ T.eSize - 1 ∧ manBits T bits = 0) ∧
    ((decode toDecimal T bits).nan = true ↔ expBits T bits = 2 ^ T.eSize - 1 ∧ manBits T bits ≠ 0) ∧
    (expBits T bits = 0 → manBits T bits = 0 → (decode toDecimal T bits).m10 = 0 ∧ (decode toDecimal T bits).e10 = 0) ∧
    (Finite T bits → ¬ (expBits T bits = 0 ∧ manBits T bits = 0) →
      ((decode toDecimal T bits).m10, (decode toDecimal T bits).e10) = toDecimal T (expBits T bits) (manBits T bits)) := by
  have h0 : (0 : Nat) ≠ 2 ^ T.eSize - 1 := by cases T <;> decide
  unfold decode Finite
  dsimp only
  split_ifs with h1 h2 h3
  · simp [h1.1, h1.2, h0]
  · simp [h2, h3, h0.symm]
  · simp [h2, h3]
  · simp [h2]
    intro a b; exact absurd ⟨a, b⟩ h1

example : decode toDecimal .double 0xBFF0000000000000 = ⟨1, 0, true, false, false⟩ ∧
    decode toDecimal .float 0xFF800000 = ⟨0, 0, true, true, false⟩ := by decide +kernel

/-! ### without format -/

theorem minus_eq (neg : Bool) : minus neg = if neg then [0x2D] else [] := rfl

/-- C56: a finite number printed without format. The text is the sign if negative, and the shortest of the fixed and the
scientific notation of the decimal number; its size, and hence its width, is the one premeasured. -/
theorem unformatted_exact (L : Lawful D Rep) (T : FloatT) (bits : Nat) (hfin : Finite T bits)
    (lc : Lettercase) :
    Prints τ D Rep ((Fast.make (decode toDecimal T bits) lc).print D)
      ((if signBit T bits then [0x2D] else []) ++ number lc [0x2E] [] [] false false
        (shape [] false .general none false (decode toDecimal T bits).m10 (decode toDecimal T bits).e10)) ∧
    (Fast.make (decode toDecimal T bits) lc).size =
      ((if signBit T bits then [0x2D] else []) ++ number lc [0x2E] [] [] false false
        (shape [] false .general none false (decode toDecimal T bits).m10 (decode toDecimal T bits).e10)).length := by
  have hx := decode_exact T bits
  obtain ⟨h1, h2, h3, -, -⟩ := hx
  have hi : (decode toDecimal T bits).infinity = false := by
    rw [← Bool.not_eq_true, h2]; exact fun h => hfin h.1
  have hn : (decode toDecimal T bits).nan = false := by
    rw [← Bool.not_eq_true, h3]; exact fun h => hfin h.1
  have he : decode toDecimal T bits = ⟨(decode toDecimal T bits).m10, (decode toDecimal T bits).e10, signBit T bits, false, false⟩ := by
    generalize decode toDecimal T bits = v at *
    cases v; dsimp only at *; rw [h1, hi, hn]
  have := fast_finite (τ := τ) (D := D) L _ _ (decode_good hfin) lc (signBit T bits)
  rw [← he] at this
  exact this

/-- C60: infinity and NaN printed without format. -/
theorem unformatted_special_exact (L : Lawful D Rep) (T : FloatT) (bits : Nat) (hfin : ¬ Finite T bits)
    (lc : Lettercase) :
    Prints τ D Rep ((Fast.make (decode toDecimal T bits) lc).print D)
      ((if signBit T bits then [0x2D] else []) ++ special lc (decide (manBits T bits ≠ 0))) ∧
    (Fast.make (decode toDecimal T bits) lc).size = ((if signBit T bits then [0x2D] else []) ++ special lc (decide (manBits T bits ≠ 0))).length := by
  have hfin : expBits T bits = 2 ^ T.eSize - 1 := not_not.mp hfin
  have h0 : (0 : Nat) ≠ 2 ^ T.eSize - 1 := by cases T <;> decide
  have hdec : decode toDecimal T bits = ⟨0, 0, signBit T bits, decide (manBits T bits = 0), decide (manBits T bits ≠ 0)⟩ := by
    unfold decode
    dsimp only
    rw [if_neg (by rw [hfin]; intro h; exact h0 h.1.symm), if_pos hfin]
    split_ifs with h <;> simp [h]
  rw [hdec]
  have hc : countDigits 10 8 0 = 1 := by decide +kernel
  constructor
  · unfold Fast.make Fast.print printSpecial
    dsimp only
    rw [special_chars]
    by_cases hm : manBits T bits = 0
    · simp only [hm, ne_eq, not_true, decide_false, decide_true, Bool.false_eq_true, if_false, if_true]
      exact L.prints_raw (τ := τ) _ _ (by cases signBit T bits <;> cases lc <;> simp [b2n, infChars]) (by cases signBit T bits <;> simp [b2n])
    · simp only [hm, ne_eq, not_false_iff, decide_false, decide_true, Bool.false_eq_true, if_false, if_true]
      exact L.prints_raw (τ := τ) _ _ (by cases signBit T bits <;> cases lc <;> simp [b2n, nanChars]) (by cases signBit T bits <;> simp [b2n])
  · unfold Fast.make Fast.size
    dsimp only
    rw [hc, List.length_append, special_length]
    by_cases hm : manBits T bits = 0 <;> cases signBit T bits <;> simp [hm, b2i]

/-! ### without precision -/

theorem no_precision_carry (gs : List Nat) (rep : Bool) (n : Spec.Notation) (alt : Bool) (sign : Showsign) (neg : Bool) (m : Nat) (e : Int) :
    CarryOk gs rep n none alt sign neg m e := by cases n <;> trivial

/-- C57, C61: a number with a format without precision and without punctuation. For every finite number, format,
alignment, destination and charset: the text is exactly what the format says, nothing is written outside the
destination's buffer, and the width and size premeasured are those of the text. -/
theorem no_precision_exact (L : Lawful D Rep) (HC : C.Lawful D Rep) (T : FloatT) (bits : Nat) (hfin : Finite T bits)
    (lc : Lettercase)
    (f : FloatFmt) (hprec : f.precision = -1) (hpad : f.pad0 ≤ 2147483647) (hhex : f.nota ≠ .hex) (a : AlignFmt) (lay : Layout)
    (hl : LayoutOf a lay) (unitBits : Nat) :
    ∃ p pre, Printer.makePlain C toDecimal lc T bits f a = some (p, pre) ∧
      Prints τ D Rep (p.print D C unitBits) (finite C.encodeChar lc 0x2E 0x2C [] false f lay (signBit T bits)
        (decode toDecimal T bits).m10 (decode toDecimal T bits).e10) ∧
      pre.width = finiteWidth [] false f lay (signBit T bits) (decode toDecimal T bits).m10 (decode toDecimal T bits).e10 ∧
      pre.size = (finite C.encodeChar lc 0x2E 0x2C [] false f lay (signBit T bits)
        (decode toDecimal T bits).m10 (decode toDecimal T bits).e10).length := by
  refine plain_finite L HC toDecimal T bits hfin (decode_good hfin) lc f ⟨.inl hprec, hpad⟩ hhex a lay hl unitBits ?_
  rw [hprec]
  exact no_precision_carry _ _ _ _ _ _ _ _

/-- C57, C61: the same with the numpunct facet: its decimal point, and its separators if the notation is fixed and the
charset can encode them. `CastOk`: see `cast_utf`, `cast_ascii`, `sbc_separator_wrong`. -/
theorem no_precision_punct_exact (L : Lawful D Rep) (HC : C.Lawful D Rep) (T : FloatT) (bits : Nat) (hfin : Finite T bits)
    (lc : Lettercase) (np10 np16 : Numpunct.Facet)
    {gs : List Nat} {rep : Bool} (hg : Valid gs rep) (hgr : np10.grouping = ctor2 (args gs rep))
    (f : FloatFmt) (hprec : f.precision = -1) (hpad : f.pad0 ≤ 2147483647) (hhex : f.nota ≠ .hex) (a : AlignFmt) (lay : Layout)
    (hl : LayoutOf a lay) (unitBits : Nat) (hcast : f.punctuate = true → CastOk C unitBits np10.thousandsSep) :
    ∃ p pre, Printer.makePunct C toDecimal lc np10 np16 T bits f a = some (p, pre) ∧
      Prints τ D Rep (p.print D C unitBits) (finite C.encodeChar lc (usedPoint np10 f) (usedSep np10 f)
        (usedGroups C np10 f gs rep).1 (usedGroups C np10 f gs rep).2 f lay (signBit T bits)
        (decode toDecimal T bits).m10 (decode toDecimal T bits).e10) ∧
      pre.width = finiteWidth (usedGroups C np10 f gs rep).1 (usedGroups C np10 f gs rep).2 f lay (signBit T bits)
        (decode toDecimal T bits).m10 (decode toDecimal T bits).e10 ∧
      pre.size = (finite C.encodeChar lc (usedPoint np10 f) (usedSep np10 f)
        (usedGroups C np10 f gs rep).1 (usedGroups C np10 f gs rep).2 f lay (signBit T bits)
        (decode toDecimal T bits).m10 (decode toDecimal T bits).e10).length := by
  refine punct_finite L HC toDecimal T bits hfin (decode_good hfin) lc np10 np16 hg hgr f ⟨.inl hprec, hpad⟩ hhex a lay hl unitBits hcast ?_
  rw [hprec]
  exact no_precision_carry _ _ _ _ _ _ _ _

/-! ### with precision -/

theorem scientific_carry (gs : List Nat) (rep : Bool) (prec : Option Nat) (alt : Bool) (sign : Showsign) (neg : Bool) (m : Nat) (e : Int) :
    CarryOk gs rep .scientific prec alt sign neg m e := by cases prec <;> trivial

/-- C58, C61: the scientific notation, with or without precision: the decimal number rounded to that many digits after the
point. -/
theorem scientific_exact (L : Lawful D Rep) (HC : C.Lawful D Rep) (T : FloatT) (bits : Nat) (hfin : Finite T bits)
    (lc : Lettercase)
    (f : FloatFmt) (hf : FmtOk f) (hsci : f.nota = .scientific) (a : AlignFmt) (lay : Layout)
    (hl : LayoutOf a lay) (unitBits : Nat) :
    ∃ p pre, Printer.makePlain C toDecimal lc T bits f a = some (p, pre) ∧
      Prints τ D Rep (p.print D C unitBits) (finite C.encodeChar lc 0x2E 0x2C [] false f lay (signBit T bits)
        (decode toDecimal T bits).m10 (decode toDecimal T bits).e10) ∧
      pre.width = finiteWidth [] false f lay (signBit T bits) (decode toDecimal T bits).m10 (decode toDecimal T bits).e10 ∧
      pre.size = (finite C.encodeChar lc 0x2E 0x2C [] false f lay (signBit T bits)
        (decode toDecimal T bits).m10 (decode toDecimal T bits).e10).length := by
  refine plain_finite L HC toDecimal T bits hfin (decode_good hfin) lc f hf (by rw [hsci]; decide) a lay hl unitBits ?_
  rw [hsci]
  exact scientific_carry _ _ _ _ _ _ _ _

/-- C58, C61: the same with the decimal point of the numpunct facet. -/
theorem scientific_punct_exact (L : Lawful D Rep) (HC : C.Lawful D Rep) (T : FloatT) (bits : Nat) (hfin : Finite T bits)
    (lc : Lettercase) (np10 np16 : Numpunct.Facet)
    {gs : List Nat} {rep : Bool} (hg : Valid gs rep) (hgr : np10.grouping = ctor2 (args gs rep))
    (f : FloatFmt) (hf : FmtOk f) (hsci : f.nota = .scientific) (a : AlignFmt) (lay : Layout)
    (hl : LayoutOf a lay) (unitBits : Nat) (hcast : f.punctuate = true → CastOk C unitBits np10.thousandsSep) :
    ∃ p pre, Printer.makePunct C toDecimal lc np10 np16 T bits f a = some (p, pre) ∧
      Prints τ D Rep (p.print D C unitBits) (finite C.encodeChar lc (usedPoint np10 f) (usedSep np10 f)
        (usedGroups C np10 f gs rep).1 (usedGroups C np10 f gs rep).2 f lay (signBit T bits)
        (decode toDecimal T bits).m10 (decode toDecimal T bits).e10) ∧
      pre.width = finiteWidth (usedGroups C np10 f gs rep).1 (usedGroups C np10 f gs rep).2 f lay (signBit T bits)
        (decode toDecimal T bits).m10 (decode toDecimal T bits).e10 ∧
      pre.size = (finite C.encodeChar lc (usedPoint np10 f) (usedSep np10 f)
        (usedGroups C np10 f gs rep).1 (usedGroups C np10 f gs rep).2 f lay (signBit T bits)
        (decode toDecimal T bits).m10 (decode toDecimal T bits).e10).length := by
  refine punct_finite L HC toDecimal T bits hfin (decode_good hfin) lc np10 np16 hg hgr f hf (by rw [hsci]; decide) a lay hl unitBits hcast ?_
  rw [hsci]
  exact scientific_carry _ _ _ _ _ _ _ _

theorem fixed_carry (prec : Option Nat) (alt : Bool) (sign : Showsign) (neg : Bool) (m : Nat) (e : Int) :
    CarryOk [] false .fixed prec alt sign neg m e := by
  cases prec with
  | none => trivial
  | some p => show (split [] false _).length = (split [] false _).length; rw [split_nil_count, split_nil_count]

/-- C58, C61: the fixed notation, with or without precision, without punctuation. -/
theorem fixed_exact (L : Lawful D Rep) (HC : C.Lawful D Rep) (T : FloatT) (bits : Nat) (hfin : Finite T bits)
    (lc : Lettercase)
    (f : FloatFmt) (hf : FmtOk f) (hfix : f.nota = .fixed) (a : AlignFmt) (lay : Layout)
    (hl : LayoutOf a lay) (unitBits : Nat) :
    ∃ p pre, Printer.makePlain C toDecimal lc T bits f a = some (p, pre) ∧
      Prints τ D Rep (p.print D C unitBits) (finite C.encodeChar lc 0x2E 0x2C [] false f lay (signBit T bits)
        (decode toDecimal T bits).m10 (decode toDecimal T bits).e10) ∧
      pre.width = finiteWidth [] false f lay (signBit T bits) (decode toDecimal T bits).m10 (decode toDecimal T bits).e10 ∧
      pre.size = (finite C.encodeChar lc 0x2E 0x2C [] false f lay (signBit T bits)
        (decode toDecimal T bits).m10 (decode toDecimal T bits).e10).length := by
  refine plain_finite L HC toDecimal T bits hfin (decode_good hfin) lc f hf (by rw [hfix]; decide) a lay hl unitBits ?_
  rw [hfix]
  exact fixed_carry _ _ _ _ _ _

/-- C58, C61, in part: the fixed notation with precision, with punctuation. Missing: the case in which rounding carries into a
new group, in which the claim is false (`fixed_grouping_carry_wrong`). -/
theorem fixed_punct_partial (L : Lawful D Rep) (HC : C.Lawful D Rep) (T : FloatT) (bits : Nat) (hfin : Finite T bits)
    (lc : Lettercase) (np10 np16 : Numpunct.Facet)
    {gs : List Nat} {rep : Bool} (hg : Valid gs rep) (hgr : np10.grouping = ctor2 (args gs rep))
    (f : FloatFmt) (hf : FmtOk f) (hfix : f.nota = .fixed) (a : AlignFmt) (lay : Layout)
    (hl : LayoutOf a lay) (unitBits : Nat) (hcast : f.punctuate = true → CastOk C unitBits np10.thousandsSep)
    (hc : CarryOk (usedGroups C np10 f gs rep).1 (usedGroups C np10 f gs rep).2 .fixed (precision f.precision)
      f.showpoint f.sign (signBit T bits) (decode toDecimal T bits).m10 (decode toDecimal T bits).e10) :
    ∃ p pre, Printer.makePunct C toDecimal lc np10 np16 T bits f a = some (p, pre) ∧
      Prints τ D Rep (p.print D C unitBits) (finite C.encodeChar lc (usedPoint np10 f) (usedSep np10 f)
        (usedGroups C np10 f gs rep).1 (usedGroups C np10 f gs rep).2 f lay (signBit T bits)
        (decode toDecimal T bits).m10 (decode toDecimal T bits).e10) ∧
      pre.width = finiteWidth (usedGroups C np10 f gs rep).1 (usedGroups C np10 f gs rep).2 f lay (signBit T bits)
        (decode toDecimal T bits).m10 (decode toDecimal T bits).e10 ∧
      pre.size = (finite C.encodeChar lc (usedPoint np10 f) (usedSep np10 f)
        (usedGroups C np10 f gs rep).1 (usedGroups C np10 f gs rep).2 f lay (signBit T bits)
        (decode toDecimal T bits).m10 (decode toDecimal T bits).e10).length := by
  refine punct_finite L HC toDecimal T bits hfin (decode_good hfin) lc np10 np16 hg hgr f hf (by rw [hfix]; decide) a lay hl unitBits hcast ?_
  rw [hfix]
  exact hc

/-- C58, C61, in part: the general notation with precision. Missing: the cases that `CarryOk` excludes, in which the claim is
false (`general_carry_sign_wrong`, `general_carry_grouping_wrong`, `general_alt_zeros_wrong`). -/
theorem general_partial (L : Lawful D Rep) (HC : C.Lawful D Rep) (T : FloatT) (bits : Nat) (hfin : Finite T bits)
    (lc : Lettercase)
    (f : FloatFmt) (hf : FmtOk f) (hgen : f.nota = .general) (a : AlignFmt) (lay : Layout)
    (hl : LayoutOf a lay) (unitBits : Nat)
    (hc : CarryOk [] false .general (precision f.precision)
      f.showpoint f.sign (signBit T bits) (decode toDecimal T bits).m10 (decode toDecimal T bits).e10) :
    ∃ p pre, Printer.makePlain C toDecimal lc T bits f a = some (p, pre) ∧
      Prints τ D Rep (p.print D C unitBits) (finite C.encodeChar lc 0x2E 0x2C [] false f lay (signBit T bits)
        (decode toDecimal T bits).m10 (decode toDecimal T bits).e10) ∧
      pre.width = finiteWidth [] false f lay (signBit T bits) (decode toDecimal T bits).m10 (decode toDecimal T bits).e10 ∧
      pre.size = (finite C.encodeChar lc 0x2E 0x2C [] false f lay (signBit T bits)
        (decode toDecimal T bits).m10 (decode toDecimal T bits).e10).length := by
  refine plain_finite L HC toDecimal T bits hfin (decode_good hfin) lc f hf (by rw [hgen]; decide) a lay hl unitBits ?_
  rw [hgen]
  exact hc

/-- C58, C61, in part: the same with punctuation. -/
theorem general_punct_partial (L : Lawful D Rep) (HC : C.Lawful D Rep) (T : FloatT) (bits : Nat) (hfin : Finite T bits)
    (lc : Lettercase) (np10 np16 : Numpunct.Facet)
    {gs : List Nat} {rep : Bool} (hg : Valid gs rep) (hgr : np10.grouping = ctor2 (args gs rep))
    (f : FloatFmt) (hf : FmtOk f) (hgen : f.nota = .general) (a : AlignFmt) (lay : Layout)
    (hl : LayoutOf a lay) (unitBits : Nat) (hcast : f.punctuate = true → CastOk C unitBits np10.thousandsSep)
    (hc : CarryOk (usedGroups C np10 f gs rep).1 (usedGroups C np10 f gs rep).2 .general (precision f.precision)
      f.showpoint f.sign (signBit T bits) (decode toDecimal T bits).m10 (decode toDecimal T bits).e10) :
    ∃ p pre, Printer.makePunct C toDecimal lc np10 np16 T bits f a = some (p, pre) ∧
      Prints τ D Rep (p.print D C unitBits) (finite C.encodeChar lc (usedPoint np10 f) (usedSep np10 f)
        (usedGroups C np10 f gs rep).1 (usedGroups C np10 f gs rep).2 f lay (signBit T bits)
        (decode toDecimal T bits).m10 (decode toDecimal T bits).e10) ∧
      pre.width = finiteWidth (usedGroups C np10 f gs rep).1 (usedGroups C np10 f gs rep).2 f lay (signBit T bits)
        (decode toDecimal T bits).m10 (decode toDecimal T bits).e10 ∧
      pre.size = (finite C.encodeChar lc (usedPoint np10 f) (usedSep np10 f)
        (usedGroups C np10 f gs rep).1 (usedGroups C np10 f gs rep).2 f lay (signBit T bits)
        (decode toDecimal T bits).m10 (decode toDecimal T bits).e10).length := by
  refine punct_finite L HC toDecimal T bits hfin (decode_good hfin) lc np10 np16 hg hgr f hf (by rw [hgen]; decide) a lay hl unitBits hcast ?_
  rw [hgen]
  exact hc

/-! ### infinity and NaN -/

/-- C60, C61: infinity and NaN, with any format. -/
theorem special_exact (L : Lawful D Rep) (HC : C.Lawful D Rep) (T : FloatT) (bits : Nat) (hfin : ¬ Finite T bits)
    (lc : Lettercase) (np10 np16 : Numpunct.Facet) (f : FloatFmt) (a : AlignFmt) (lay : Layout) (hl : LayoutOf a lay) (unitBits : Nat)
    (q : Option (Printer × Pre)) (hq : q = Printer.makePlain C toDecimal lc T bits f a ∨ q = Printer.makePunct C toDecimal lc np10 np16 T bits f a) :
    ∃ p pre, q = some (p, pre) ∧
      Prints τ D Rep (p.print D C unitBits) (specialText C.encodeChar lc f lay (signBit T bits) (decide (manBits T bits ≠ 0))) ∧
      pre.width = specialWidth f lay (signBit T bits) ∧
      pre.size = (specialText C.encodeChar lc f lay (signBit T bits) (decide (manBits T bits ≠ 0))).length := by
  rcases hq with rfl | rfl
  · exact plain_special L HC toDecimal T bits hfin lc f a lay hl unitBits
  · exact punct_special L HC toDecimal T bits hfin lc np10 np16 f a lay hl unitBits

/-! ### the hexadecimal notation -/

theorem stripHex_high (f : Nat) : ∀ v, (stripHex v f).1 / 16 ^ (stripHex v f).2 = v / 16 ^ f := by
  induction f with
  | zero => intro v; simp [stripHex]
  | succ f ih =>
    intro v
    rw [stripHex]
    split_ifs with h
    · rw [ih, Nat.pow_succ', Nat.div_div_eq_div_mul]
    · rfl

theorem hex_no_carry (lead frac : Nat) (hfrac : frac < 2 ^ 52) (prec : Option Nat) (h : ∀ p, prec = some p → 13 ≤ p) :
    HexCarryOk lead frac prec := by
  have hk : (2 : Nat) ^ 52 = 16 ^ 13 := by norm_num
  have hk0 : (0 : Nat) < 16 ^ 13 := Nat.pow_pos (by decide)
  have h1 : (lead * 16 ^ 13 + frac) / 16 ^ 13 = lead := by
    rw [hk] at hfrac
    rw [Nat.add_comm, Nat.add_mul_div_right _ _ hk0, Nat.div_eq_of_lt hfrac, Nat.zero_add]
  unfold HexCarryOk
  cases prec with
  | none =>
    have : hexShape lead frac none = stripHex (lead * 16 ^ 13 + frac) 13 := by unfold hexShape; rfl
    rw [this, stripHex_high, h1]
  | some p =>
    have hp := h p rfl
    have : hexShape lead frac (some p) = ((lead * 16 ^ 13 + frac) * 16 ^ (p - 13), p) := by
      unfold hexShape
      exact if_neg (by omega)
    rw [this]
    have h2 : 16 ^ p = 16 ^ (p - 13) * 16 ^ 13 := by rw [← Nat.pow_add, Nat.sub_add_cancel hp]
    show (lead * 16 ^ 13 + frac) * 16 ^ (p - 13) / 16 ^ p = lead
    rw [h2, ← Nat.div_div_eq_div_mul, Nat.mul_div_cancel _ (Nat.pow_pos (by decide)), h1]

/-- C59, C61: the hexadecimal notation without precision, or with as many digits as the number has (13) or more. -/
theorem hex_exact (L : Lawful D Rep) (HC : C.Lawful D Rep) (T : FloatT) (bits : Nat) (hfin : Finite T bits)
    (lc : Lettercase) (f : FloatFmt) (hf : FmtOk f) (hhex : f.nota = .hex) (hp : f.precision = -1 ∨ 13 ≤ f.precision)
    (a : AlignFmt) (lay : Layout) (hl : LayoutOf a lay) (unitBits : Nat) :
    ∃ p pre, Printer.makePlain C toDecimal lc T bits f a = some (p, pre) ∧
      Prints τ D Rep (p.print D C unitBits) (hexFormatted C.encodeChar lc 0x2E f lay (signBit T bits)
        (hexLead T bits) (hexFrac T bits) (hexExponent T bits)) ∧
      pre.width = hexWidth f lay (signBit T bits) (hexLead T bits) (hexFrac T bits) (hexExponent T bits) ∧
      pre.size = (hexFormatted C.encodeChar lc 0x2E f lay (signBit T bits) (hexLead T bits) (hexFrac T bits) (hexExponent T bits)).length := by
  refine plain_hex L HC toDecimal T bits hfin lc f hf hhex a lay hl unitBits (hex_no_carry _ _ (hexFrac_lt T bits) _ ?_)
  intro p h
  unfold precision at h
  split_ifs at h
  injection h with h
  omega

/-- C59, C61, in part: with any precision. Missing: the case in which rounding changes the digit before the point, in which
the claim is false (`hex_carry_wrong`). -/
theorem hex_partial (L : Lawful D Rep) (HC : C.Lawful D Rep) (T : FloatT) (bits : Nat) (hfin : Finite T bits)
    (lc : Lettercase) (f : FloatFmt) (hf : FmtOk f) (hhex : f.nota = .hex) (a : AlignFmt) (lay : Layout) (hl : LayoutOf a lay) (unitBits : Nat)
    (hc : HexCarryOk (hexLead T bits) (hexFrac T bits) (precision f.precision)) :
    ∃ p pre, Printer.makePlain C toDecimal lc T bits f a = some (p, pre) ∧
      Prints τ D Rep (p.print D C unitBits) (hexFormatted C.encodeChar lc 0x2E f lay (signBit T bits)
        (hexLead T bits) (hexFrac T bits) (hexExponent T bits)) ∧
      pre.width = hexWidth f lay (signBit T bits) (hexLead T bits) (hexFrac T bits) (hexExponent T bits) ∧
      pre.size = (hexFormatted C.encodeChar lc 0x2E f lay (signBit T bits) (hexLead T bits) (hexFrac T bits) (hexExponent T bits)).length :=
  plain_hex L HC toDecimal T bits hfin lc f hf hhex a lay hl unitBits hc

/-- C59, C61, in part: with the decimal point of the numpunct facet (of base 16). -/
theorem hex_punct_partial (L : Lawful D Rep) (HC : C.Lawful D Rep) (T : FloatT) (bits : Nat) (hfin : Finite T bits)
    (lc : Lettercase) (np10 np16 : Numpunct.Facet)
    (f : FloatFmt) (hf : FmtOk f) (hhex : f.nota = .hex) (a : AlignFmt) (lay : Layout) (hl : LayoutOf a lay) (unitBits : Nat)
    (hc : HexCarryOk (hexLead T bits) (hexFrac T bits) (precision f.precision)) :
    ∃ p pre, Printer.makePunct C toDecimal lc np10 np16 T bits f a = some (p, pre) ∧
      Prints τ D Rep (p.print D C unitBits) (hexFormatted C.encodeChar lc (usedPoint np16 f) f lay (signBit T bits)
        (hexLead T bits) (hexFrac T bits) (hexExponent T bits)) ∧
      pre.width = hexWidth f lay (signBit T bits) (hexLead T bits) (hexFrac T bits) (hexExponent T bits) ∧
      pre.size = (hexFormatted C.encodeChar lc (usedPoint np16 f) f lay (signBit T bits)
        (hexLead T bits) (hexFrac T bits) (hexExponent T bits)).length :=
  punct_hex L HC toDecimal T bits hfin lc np10 np16 f hf hhex a lay hl unitBits hc

/-- The fields of the hexadecimal notation denote the number: `(lead + frac / 2^52) · 2^x` is
`(2^m + mantissa) · 2^(exponent - bias - m)`, and `mantissa · 2^(1 - bias - m)` if the exponent is 0 (IEEE 754). -/
theorem hex_value (T : FloatT) (bits : Nat) :
    ((hexLead T bits : Rat) + (hexFrac T bits : Rat) / 2 ^ 52) * (2 : Rat) ^ (hexExponent T bits) =
      (if expBits T bits = 0 then (manBits T bits : Rat) * (2 : Rat) ^ (1 - T.bias - T.mSize)
       else ((2 ^ T.mSize + manBits T bits : Nat) : Rat) * (2 : Rat) ^ ((expBits T bits : Int) - T.bias - T.mSize)) := by
  have h2 : (2 : Rat) ≠ 0 := by norm_num
  have hfr : (hexFrac T bits : Rat) / 2 ^ 52 = (manBits T bits : Rat) / 2 ^ T.mSize := by
    unfold hexFrac
    cases T <;> simp only [FloatT.mSize] <;> push_cast <;> ring
  rw [hfr]
  unfold hexLead hexExponent
  split_ifs with h1 h3
  · rw [h3]; simp
  · rw [zpow_sub₀ h2 (1 - T.bias), zpow_natCast]; push_cast; ring
  · rw [zpow_sub₀ h2 _ (T.mSize : Int), zpow_natCast]; push_cast
    have : (2 : Rat) ^ T.mSize ≠ 0 := by positivity
    have h3 : (1 + (manBits T bits : Rat) / 2 ^ T.mSize) = (2 ^ T.mSize + manBits T bits) / 2 ^ T.mSize := by
      rw [add_div, div_self this]
    rw [h3]; ring

/-! ### the separator -/

/-- the UTF charsets encode a character as one code unit only if that unit is its code point -/
theorem cast_utf (D : Dest Nat σ) (e : Utf.Enc) (sep : Nat) (hs : sep < 2 ^ 32) :
    CastOk (utf D e) (match e with | .utf8 => 8 | .utf16 => 16 | .utf32 => 32) sep := by
  intro hv h
  dsimp only at hv h ⊢
  cases e <;> simp only [Utf.encodeChar, Utf.validate, Utf.bytes2, Utf.bytes3, Utf.bytes4, Utf.pair16] at hv h ⊢
  · split_ifs at h ⊢ <;> simp only [List.length_cons, List.length_nil] at h ⊢ <;> first | rfl | omega
  · by_cases h1 : sep < 0x10000
    · rw [if_pos h1]; rfl
    · rw [if_neg h1] at h ⊢
      by_cases h2 : sep < 0x110000
      · rw [if_pos h2] at h; simp only [List.length_cons, List.length_nil] at h; omega
      · exfalso; revert hv; simp only [h1, h2, if_false]; split_ifs <;> first | omega | simp
  · rw [Nat.mod_eq_of_lt hs]


/-- every charset encodes an ASCII separator as itself -/
theorem cast_ascii (HC : C.Lawful D Rep) (unitBits sep : Nat) (hs : sep < 0x80) (hu : 8 ≤ unitBits) : CastOk C unitBits sep := by
  intro _ _
  have : (2 : Nat) ^ 8 ≤ 2 ^ unitBits := Nat.pow_le_pow_right (by decide) hu
  rw [HC.ascii sep hs, Nat.mod_eq_of_lt (by omega)]

/-! ### cases, and what is wrong

Each of the following numbers is printed to a string; the result is the text, and the premeasured width and size. -/

/-- the text printed to a string, and the premeasured width and size; `char` has 8 bits -/
def shown (C : Charset (Dest.Maker Nat)) (r : Option (Printer × Pre)) : Option (List Nat × Int × Nat) :=
  r.bind fun r => ((r.1.print Dest.Maker.dest C 8 (Dest.Maker.init (List.replicate 64 0))).bind fun s =>
    (Dest.Maker.finishE true s).2).map fun t => (t, r.2.width, r.2.size)

/-- UTF-8 -/
abbrev u8 : Charset (Dest.Maker Nat) := utf (Dest.Maker.dest (α := Nat)) .utf8
/-- no alignment -/
abbrev noAlign : AlignFmt := ⟨0x20, .right, 0⟩
/-- groups of three digits, with this separator -/
abbrev threes (sep : Nat) : Numpunct.Facet := ⟨ctor2 (args [3] true), 0x2E, sep⟩

/-- the hypotheses are met: 6.25 · 10^23, centred, with a sign, zeros and separators of three code units -/
example : GoodDec 625 21 ∧ Valid [3] true ∧ LayoutOf ⟨0x2A, .center, 30 * 65536⟩ ⟨0x2A, .center, 30⟩ ∧
    FmtOk ⟨2, 10, .fixed, .positiveAlso, true, true⟩ ∧ Finite .double 0x44E08B2A2C280291 ∧ CastOk u8 8 0x2019 ∧
    CarryOk [3] true .fixed (some 2) true .positiveAlso false 625 21 ∧
    shown u8 (Printer.makePunct u8 toDecimal .lower (threes 0x2019) (threes 0x2019) .double 0x44E08B2A2C280291
      ⟨-1, 30, .fixed, .positiveAlso, false, true⟩ ⟨0x2A, .center, 34 * 65536⟩) =
    some ("*+625".toList.map Char.toNat ++ (List.replicate 7 ([0xE2, 0x80, 0x99] ++ "000".toList.map Char.toNat)).flatten ++ [0x2A], 34, 48) := by
  refine ⟨⟨by decide, by decide, by decide, by decide, by decide⟩, ⟨by decide, by simp, by simp⟩,
    ⟨rfl, rfl, by unfold CInt.InI32; decide, ?_⟩, ⟨by decide, by decide⟩, by unfold Finite; decide, cast_utf _ .utf8 _ (by decide), by decide +kernel,
    by decide +kernel⟩
  unfold WidthSpec.IsRound; left; decide

example : shown u8 (Printer.makePlain u8 toDecimal .upper .double 0x44E08B2A2C280291
      ⟨4, 14, .scientific, .fillInstead, true, false⟩ ⟨0x2022, .left, 16 * 65536⟩) =
    some ([0xE2, 0x80, 0xA2] ++ "0006.2500E+23".toList.map Char.toNat ++ [0xE2, 0x80, 0xA2, 0xE2, 0x80, 0xA2], 16, 22) ∧
    shown u8 (Printer.makePlain u8 toDecimal .upper .double 0x44E08B2A2C280291
      ⟨-1, 0, .hex, .negativeOnly, false, false⟩ noAlign) = some ("0X1.08B2A2C280291P+79".toList.map Char.toNat, 21, 21) ∧
    HexCarryOk (hexLead .double 0x44E08B2A2C280291) (hexFrac .double 0x44E08B2A2C280291) (some 3) ∧
    hexFormatted (Utf.encodeChar .utf8) .upper 0x2E ⟨3, 0, .hex, .negativeOnly, false, false⟩ ⟨0x20, .right, 0⟩ false
      (hexLead .double 0x44E08B2A2C280291) (hexFrac .double 0x44E08B2A2C280291) (hexExponent .double 0x44E08B2A2C280291) =
      "0X1.08BP+79".toList.map Char.toNat := by
  refine ⟨by decide +kernel, by decide +kernel, ?_, by decide +kernel⟩
  unfold HexCarryOk; decide +kernel

example : ¬ Finite .double 0xFFF0000000000000 ∧ shown u8 (Printer.makePlain u8 toDecimal .mixed .double 0xFFF0000000000000
      ⟨-1, 6, .fixed, .negativeOnly, false, false⟩ noAlign) = some ("  -Inf".toList.map Char.toNat, 6, 6) := by
  refine ⟨by unfold Finite; decide, by decide +kernel⟩

example : GoodDec 123 (-2) ∧ Finite .double 0xBFF3AE147AE147AE ∧
    (((Fast.make (decode toDecimal .double 0xBFF3AE147AE147AE) .lower).print Dest.Maker.dest
      (Dest.Maker.init (List.replicate 64 0))).bind fun s => (Dest.Maker.finishE true s).2) = some ("-1.23".toList.map Char.toNat) :=
  ⟨⟨by decide, by decide, by decide, by decide, by decide⟩, by unfold Finite; decide, by decide +kernel⟩

/-- C58, C61 are false when the general notation with precision carries to a single digit and stays in fixed form: -9.99 with
two digits prints `-10`, of which two characters are premeasured: the sign is forgotten (float.hpp 1655, 1664). -/
theorem general_carry_sign_wrong :
    shown u8 (Printer.makePlain u8 toDecimal .lower .double 0xC023FAE147AE147B ⟨2, 0, .general, .negativeOnly, false, false⟩ noAlign) =
      some ("-10".toList.map Char.toNat, 2, 2) := by decide +kernel

/-- C58 is false when rounding in the fixed notation carries to a new group of digits: 999.9 with precision 0 and groups of
three is printed without separator … -/
theorem fixed_grouping_carry_wrong :
    shown u8 (Printer.makePunct u8 toDecimal .lower (threes 0x2C) (threes 0x2C) .double 0x408F3F3333333333
      ⟨0, 0, .fixed, .negativeOnly, false, true⟩ noAlign) = some ("1000".toList.map Char.toNat, 4, 4) ∧
    finite (Utf.encodeChar .utf8) .lower 0x2E 0x2C [3] true ⟨0, 0, .fixed, .negativeOnly, false, true⟩ ⟨0x20, .right, 0⟩ false 9999 (-1) =
      "1,000".toList.map Char.toNat := by decide +kernel

/-- … and of 999999.9 there are nine characters, of which eight are premeasured. -/
theorem fixed_grouping_size_wrong :
    shown u8 (Printer.makePunct u8 toDecimal .lower (threes 0x2C) (threes 0x2C) .double 0x412E847FCCCCCCCD
      ⟨0, 0, .fixed, .negativeOnly, false, true⟩ noAlign) = some ("1,000,000".toList.map Char.toNat, 8, 8) := by decide +kernel

/-- C61 is false when the general notation with precision carries from the fixed to the scientific form: of the separator,
which is not printed, all code units but one are premeasured. -/
theorem general_carry_grouping_wrong :
    shown u8 (Printer.makePunct u8 toDecimal .lower (threes 0x2019) (threes 0x2019) .double 0x40F869FB33333333
      ⟨5, 0, .general, .negativeOnly, false, true⟩ noAlign) = some ("1e+05".toList.map Char.toNat, 5, 7) := by decide +kernel

/-- C58 is false in the general notation with precision and `*` (which keeps trailing zeros) if digits were removed: 1.00001
with four digits is printed as `1.`, not `1.000`. -/
theorem general_alt_zeros_wrong :
    shown u8 (Printer.makePlain u8 toDecimal .lower .double 0x3FF0000A7C5AC472 ⟨4, 0, .general, .negativeOnly, true, false⟩ noAlign) =
      some ("1.".toList.map Char.toNat, 2, 2) ∧
    finite (Utf.encodeChar .utf8) .lower 0x2E 0x2C [] false ⟨4, 0, .general, .negativeOnly, true, false⟩ ⟨0x20, .right, 0⟩ false 100001 (-5) =
      "1.000".toList.map Char.toNat := by decide +kernel

/-- C59 is false when rounding in the hexadecimal notation carries to the digit before the point: the carry is lost.
0x1.ffffp+0 with one digit is printed as `0x1.0p+0`, which is half as much; with no digit, as `0x1p+0`. -/
theorem hex_carry_wrong :
    shown u8 (Printer.makePlain u8 toDecimal .lower .double 0x3FFFFFF000000000 ⟨1, 0, .hex, .negativeOnly, false, false⟩ noAlign) =
      some ("0x1.0p+0".toList.map Char.toNat, 8, 8) ∧
    hexFormatted (Utf.encodeChar .utf8) .lower 0x2E ⟨1, 0, .hex, .negativeOnly, false, false⟩ ⟨0x20, .right, 0⟩ false
      (hexLead .double 0x3FFFFFF000000000) (hexFrac .double 0x3FFFFFF000000000) (hexExponent .double 0x3FFFFFF000000000) =
      "0x2.0p+0".toList.map Char.toNat ∧
    shown u8 (Printer.makePlain u8 toDecimal .lower .double 0x3FFFFFF000000000 ⟨0, 0, .hex, .negativeOnly, false, false⟩ noAlign) =
      some ("0x1p+0".toList.map Char.toNat, 6, 6) := by decide +kernel

/-- C57 is false in the single-byte charsets if the separator is not ASCII: the printer casts its code point to `char`
(float.hpp 2379) instead of encoding it. In ISO-8859-5, U+0401 is the byte 0xA1; 0x01 is printed. -/
theorem sbc_separator_wrong :
    shown (sbc Dest.Maker.dest Sbc.iso_8859_5) (Printer.makePunct (sbc Dest.Maker.dest Sbc.iso_8859_5) toDecimal .lower (threes 0x401)
      (threes 0x401) .double 0x4093480000000000 ⟨-1, 0, .fixed, .negativeOnly, false, true⟩ noAlign) = some ([0x31, 0x01, 0x32, 0x33, 0x34], 5, 5) ∧
    finite (sbc Dest.Maker.dest Sbc.iso_8859_5).encodeChar .lower 0x2E 0x401 [3] true ⟨-1, 0, .fixed, .negativeOnly, false, true⟩ ⟨0x20, .right, 0⟩
      false 1234 0 = [0x31, 0xA1, 0x32, 0x33, 0x34] ∧ Sbc.iso_8859_5 ∈ Sbc.all := by
  refine ⟨by decide +kernel, by decide +kernel, by simp [Sbc.all]⟩

end Strf.Float

import Verif.Float.HexPrint
/-
Lemmas: the constructors, in the hexadecimal notation.
-/
namespace Strf.Float
open Strf.Float.Spec hiding Notation
open Strf.IntDigits Strf.IntDigits.Spec Strf.Numpunct Strf.Numpunct.Spec Strf.Print
open Strf.IntPrinter (b2n b2i AlignFmt signChar printFill printFill_ok LayoutOf times_length times_succ)
open Strf.IntPrinter.Spec (Showsign Align Layout before times)
open Strf.Dest (Dest Lawful Prints)

variable {σ : Type} {D : Dest Nat σ} {Rep : σ → List Nat → Prop} {C : Charset σ}

/-- the digit before the point -/
def hexLead (T : FloatT) (bits : Nat) : Nat := if expBits T bits = 0 then 0 else 1
/-- the digits after the point, as an integer of 13 hexadecimal digits -/
def hexFrac (T : FloatT) (bits : Nat) : Nat := manBits T bits * 2 ^ (52 - T.mSize)
/-- the binary exponent: that of the least normal number if the number is subnormal, and 0 if it is zero -/
def hexExponent (T : FloatT) (bits : Nat) : Int :=
  if expBits T bits = 0 then (if manBits T bits = 0 then 0 else 1 - T.bias) else expBits T bits - T.bias

theorem expBits_lt (T : FloatT) (bits : Nat) : expBits T bits < 2 ^ T.eSize := by
  unfold expBits
  cases T <;> simp only [FloatT.bits, FloatT.mSize, FloatT.eSize] <;> omega

theorem hexFrac_lt (T : FloatT) (bits : Nat) : hexFrac T bits < 2 ^ 52 := by
  unfold hexFrac manBits
  cases T <;> simp only [FloatT.mSize] <;> omega

theorem initData_hex (toDec : ToDecimal) (T : FloatT) (bits : Nat) (hfin : Finite T bits) (grp : Nat)
    (f : FloatFmt) (hf : FmtOk f) (hhex : f.nota = .hex) (a : AlignFmt) (lay : Layout) (hl : LayoutOf a lay)
    (hc : HexCarryOk (hexLead T bits) (hexFrac T bits) (precision f.precision)) :
    ∃ d', initData toDec T bits grp f a = initFill d' lay.columns (max (d'.sub + d'.extra) d'.pad0) lay.align ∧
      HexGood f.showpoint (hexLead T bits) (hexFrac T bits) (hexExponent T bits) (precision f.precision) f.sign (signBit T bits)
        lay.fill f.pad0 d' := by
  have hlay := hl.columns
  subst hlay
  unfold initData
  dsimp only
  rw [if_neg hfin, if_pos hhex]
  have hs := start_ok f a (signBit T bits) (hexFrac T bits) ((expBits T bits : Int) - T.bias + b2i (decide (expBits T bits = 0)))
    (decide (expBits T bits = 0))
  have hlt := expBits_lt T bits
  have hx : ((expBits T bits : Int) - T.bias + b2i (decide (expBits T bits = 0))).natAbs < 10000 := by
    have : (0 : Int) ≤ b2i (decide (expBits T bits = 0)) ∧ b2i (decide (expBits T bits = 0)) ≤ 1 := by
      unfold b2i; split_ifs <;> simp
    cases T <;> simp only [FloatT.eSize, FloatT.bias] at * <;> omega
  have hexp : (if hexLead T bits = 0 ∧ hexFrac T bits = 0 then 0 else (expBits T bits : Int) - T.bias + b2i (decide (expBits T bits = 0))) =
      hexExponent T bits := by
    unfold hexExponent hexLead hexFrac
    by_cases h0 : expBits T bits = 0
    · rw [h0]
      simp only [if_true, true_and, b2i, decide_true]
      by_cases hm : manBits T bits = 0
      · simp [hm]
      · rw [if_neg (by rw [Nat.mul_eq_zero]; simp [hm]), if_neg hm]; push_cast; omega
    · simp [h0, b2i]
  obtain ⟨d', e, hg⟩ := initHex_ok (lead := hexLead T bits) hs (by unfold hexLead; split_ifs with h <;> simp [h])
    (by unfold hexLead; split_ifs <;> omega) (hexFrac_lt T bits) hx f hf hc (Width.round a.width) a.align
  rw [hexp] at hg
  exact ⟨d', e, hg⟩

theorem hexExponent_lt (T : FloatT) (bits : Nat) : (hexExponent T bits).natAbs < 10000 := by
  have hlt := expBits_lt T bits
  unfold hexExponent
  split_ifs <;> cases T <;> simp only [FloatT.eSize, FloatT.bias] at * <;> omega

theorem hexLead_le (T : FloatT) (bits : Nat) : hexLead T bits ≤ 1 := by unfold hexLead; split_ifs <;> omega

theorem plain_hex_of (L : Lawful D Rep) (HC : C.Lawful D Rep) (toDec : ToDecimal) (T : FloatT) (bits : Nat)
    (lc : Lettercase) (f : FloatFmt) (hf : FmtOk f) (a : AlignFmt) (lay : Layout) (unitBits : Nat)
    {frac : Nat} (hi : ∀ grp, ∃ d', initData toDec T bits grp f a = initFill d' lay.columns (max (d'.sub + d'.extra) d'.pad0) lay.align ∧
      HexGood f.showpoint (hexLead T bits) frac (hexExponent T bits) (precision f.precision) f.sign (signBit T bits) lay.fill f.pad0 d') :
    ∃ p pre, Printer.makePlain C toDec lc T bits f a = some (p, pre) ∧
      Prints τ D Rep (p.print D C unitBits) (hexFormatted C.encodeChar lc 0x2E f lay (signBit T bits)
        (hexLead T bits) frac (hexExponent T bits)) ∧
      pre.width = hexWidth f lay (signBit T bits) (hexLead T bits) frac (hexExponent T bits) ∧
      pre.size = (hexFormatted C.encodeChar lc 0x2E f lay (signBit T bits) (hexLead T bits) frac (hexExponent T bits)).length := by
  obtain ⟨d, e, hgood⟩ := hi emptyWord
  obtain ⟨d', r, e', hsame, hw, hsz, hpr⟩ := hex_fill L HC (hexLead_le T bits) (hexExponent_lt T bits) hf.pad0 lay hgood
  rw [e'] at e
  have hpt : C.charSize 0x2E = 1 := by rw [HC.size, HC.ascii _ (by decide)]; rfl
  unfold Printer.makePlain
  rw [e]
  refine ⟨_, _, rfl, ?_, hw, ?_⟩
  · refine hpr _ unitBits rfl ?_
    dsimp only
    rw [hpt]; cases d'.showpoint <;> rfl
  · dsimp only
    have h := hsz lc 0x2E
    rw [← HC.size, hpt] at h
    have h3 : (if d'.showpoint = true then ((1 : Nat) : Int) - 1 else 0) = 0 := by split_ifs <;> rfl
    rw [h3] at h
    omega

theorem punct_hex_of (L : Lawful D Rep) (HC : C.Lawful D Rep) (toDec : ToDecimal) (T : FloatT) (bits : Nat)
    (lc : Lettercase) (np10 np16 : Numpunct.Facet)
    (f : FloatFmt) (hf : FmtOk f) (hhex : f.nota = .hex) (a : AlignFmt) (lay : Layout) (unitBits : Nat)
    {frac : Nat} (hi : ∀ grp, ∃ d', initData toDec T bits grp f a = initFill d' lay.columns (max (d'.sub + d'.extra) d'.pad0) lay.align ∧
      HexGood f.showpoint (hexLead T bits) frac (hexExponent T bits) (precision f.precision) f.sign (signBit T bits) lay.fill f.pad0 d') :
    ∃ p pre, Printer.makePunct C toDec lc np10 np16 T bits f a = some (p, pre) ∧
      Prints τ D Rep (p.print D C unitBits) (hexFormatted C.encodeChar lc (usedPoint np16 f) f lay (signBit T bits)
        (hexLead T bits) frac (hexExponent T bits)) ∧
      pre.width = hexWidth f lay (signBit T bits) (hexLead T bits) frac (hexExponent T bits) ∧
      pre.size = (hexFormatted C.encodeChar lc (usedPoint np16 f) f lay (signBit T bits)
        (hexLead T bits) frac (hexExponent T bits)).length := by
  have hpoint : (if f.punctuate then (if f.nota ≠ .hex then np10.decimalPoint else np16.decimalPoint) else 0x2E) = usedPoint np16 f := by
    unfold usedPoint; rw [hhex]; simp
  unfold Printer.makePunct
  rw [hpoint]
  generalize usedPoint np16 f = point
  dsimp only
  generalize (if f.punctuate = true then validGrouping C (if f.punctuate = true then np10.thousandsSep else 0x2C) np10.grouping else emptyWord) = grp
  obtain ⟨d, e, hgood⟩ := hi grp
  obtain ⟨d', r, e', hsame, hw, hsz, hpr⟩ := hex_fill L HC (hexLead_le T bits) (hexExponent_lt T bits) hf.pad0 lay hgood
  rw [e'] at e
  rw [e]
  refine ⟨_, _, rfl, ?_, hw, ?_⟩
  · exact hpr _ unitBits rfl rfl
  · dsimp only
    have h := hsz lc point
    rw [if_neg (by simp [hhex])]
    have h4 : (if d'.showpoint = true then ((if d'.showpoint = true then C.charSize point else 0 : Nat) : Int) - 1 else 0) =
        (if d'.showpoint = true then ((C.encodeChar point).length : Int) - 1 else 0) := by
      split_ifs
      · rw [HC.size]
      · rfl
    rw [h4]
    omega

theorem plain_hex (L : Lawful D Rep) (HC : C.Lawful D Rep) (toDec : ToDecimal) (T : FloatT) (bits : Nat) (hfin : Finite T bits)
    (lc : Lettercase) (f : FloatFmt) (hf : FmtOk f) (hhex : f.nota = .hex) (a : AlignFmt) (lay : Layout) (hl : LayoutOf a lay) (unitBits : Nat)
    (hc : HexCarryOk (hexLead T bits) (hexFrac T bits) (precision f.precision)) :
    ∃ p pre, Printer.makePlain C toDec lc T bits f a = some (p, pre) ∧
      Prints τ D Rep (p.print D C unitBits) (hexFormatted C.encodeChar lc 0x2E f lay (signBit T bits)
        (hexLead T bits) (hexFrac T bits) (hexExponent T bits)) ∧
      pre.width = hexWidth f lay (signBit T bits) (hexLead T bits) (hexFrac T bits) (hexExponent T bits) ∧
      pre.size = (hexFormatted C.encodeChar lc 0x2E f lay (signBit T bits) (hexLead T bits) (hexFrac T bits) (hexExponent T bits)).length :=
  plain_hex_of L HC toDec T bits lc f hf a lay unitBits fun grp => initData_hex toDec T bits hfin grp f hf hhex a lay hl hc

theorem punct_hex (L : Lawful D Rep) (HC : C.Lawful D Rep) (toDec : ToDecimal) (T : FloatT) (bits : Nat) (hfin : Finite T bits)
    (lc : Lettercase) (np10 np16 : Numpunct.Facet)
    (f : FloatFmt) (hf : FmtOk f) (hhex : f.nota = .hex) (a : AlignFmt) (lay : Layout) (hl : LayoutOf a lay) (unitBits : Nat)
    (hc : HexCarryOk (hexLead T bits) (hexFrac T bits) (precision f.precision)) :
    ∃ p pre, Printer.makePunct C toDec lc np10 np16 T bits f a = some (p, pre) ∧
      Prints τ D Rep (p.print D C unitBits) (hexFormatted C.encodeChar lc (usedPoint np16 f) f lay (signBit T bits)
        (hexLead T bits) (hexFrac T bits) (hexExponent T bits)) ∧
      pre.width = hexWidth f lay (signBit T bits) (hexLead T bits) (hexFrac T bits) (hexExponent T bits) ∧
      pre.size = (hexFormatted C.encodeChar lc (usedPoint np16 f) f lay (signBit T bits)
        (hexLead T bits) (hexFrac T bits) (hexExponent T bits)).length :=
  punct_hex_of L HC toDec T bits lc np10 np16 f hf hhex a lay unitBits fun grp => initData_hex toDec T bits hfin grp f hf hhex a lay hl hc

end Strf.Float

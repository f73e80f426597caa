import Verif.Dragonbox.Props
import Verif.Float.HexReadBack
/-
C81: numbers printed in hexadecimal notation are read back unchanged. How a text is read is in Float/HexReadSpec.lean, the value of
the bits of a number in Dragonbox/Spec.lean.
-/
namespace Strf.Dragonbox
open Strf.Float Strf.Dragonbox.Spec
open Strf.IntDigits.Spec (Lettercase)
open Strf.IntPrinter (AlignFmt LayoutOf)
open Strf.IntPrinter.Spec (Showsign Layout)
open Strf.Print
open Strf.Dest (Dest Lawful Prints)
open Strf.Float.Spec (readHexNumber)

variable {σ : Type} {D : Dest Nat σ} {Rep : σ → List Nat → Prop} {C : Charset σ}

theorem hex_fields_value (T : FloatT) (bits : Nat) :
    ((hexLead T bits : Rat) + (hexFrac T bits : Rat) / 2 ^ 52) * (2 : Rat) ^ (hexExponent T bits) =
      value T.mSize T.eSize (expBits T bits) (manBits T bits) := by
  rw [hex_value]
  unfold value
  cases T <;> rfl

/-- the text of a number that is not aligned, and whose sign is not replaced -/
theorem hexFormatted_reads (HC : C.Lawful D Rep) (T : FloatT) (bits : Nat) (lc : Lettercase) (f : FloatFmt)
    (hsign : f.sign ≠ .fillInstead) (lay : Layout) (hno : lay.columns ≤ 0)
    (hc : HexCarryOk (hexLead T bits) (hexFrac T bits) (precision f.precision)) :
    readHexNumber (hexFormatted C.encodeChar lc 0x2E f lay (signBit T bits) (hexLead T bits) (hexFrac T bits) (hexExponent T bits)) =
      some (signBit T bits, hexShown (hexLead T bits) (hexFrac T bits) (hexExponent T bits) (precision f.precision)) := by
  unfold hexFormatted Float.Spec.arranged
  dsimp only
  have hn : ∀ c : Nat, (lay.columns - (c : Int)).toNat = 0 := by intro c; omega
  rw [hn, HC.ascii 0x2E (by decide)]
  have hb : IntPrinter.Spec.before lay.align 0 = 0 := by cases lay.align <;> rfl
  have ht : IntPrinter.Spec.times C.encodeChar 0 lay.fill = [] := rfl
  rw [hb, ht, List.append_nil, List.nil_append]
  have hlead : Float.Spec.leader C.encodeChar f.sign lay.fill (signBit T bits) =
      if signBit T bits then [0x2D] else if decide (f.sign = .positiveAlso) then [0x2B] else [] := by
    unfold Float.Spec.leader
    cases signBit T bits
    · cases hs : f.sign with
      | negativeOnly => rfl
      | positiveAlso => rfl
      | fillInstead => exact absurd hs hsign
    · rfl
  rw [hlead]
  exact readHexNumber_text lc f.showpoint _ _ _ _ _ _ _ (hexLead_le T bits) hc

/-- C81: a finite number printed in hexadecimal notation without precision, or with 13 digits or more, with any sign option that does
not replace the sign by a fill character, any number of leading zeros, with or without `*`, if no alignment is needed, denotes exactly
that number. -/
theorem hex_round_trip (L : Lawful D Rep) (HC : C.Lawful D Rep) (T : FloatT) (bits : Nat) (hfin : Finite T bits)
    (lc : Lettercase) (f : FloatFmt) (hf : FmtOk f) (hhex : f.nota = .hex) (hp : f.precision = -1 ∨ 13 ≤ f.precision)
    (hsign : f.sign ≠ .fillInstead) (a : AlignFmt) (lay : Layout) (hl : LayoutOf a lay) (hno : lay.columns ≤ 0)
    (unitBits : Nat) :
    ∃ p pre txt, Printer.makePlain C toDecimal lc T bits f a = some (p, pre) ∧ Prints τ D Rep (p.print D C unitBits) txt ∧
      readHexNumber txt = some (signBit T bits, value T.mSize T.eSize (expBits T bits) (manBits T bits)) := by
  obtain ⟨p, pre, h1, h2, -, -⟩ := hex_exact L HC T bits hfin lc f hf hhex hp a lay hl unitBits
  have hprec : ∀ q, precision f.precision = some q → 13 ≤ q := by
    intro q hq
    unfold precision at hq
    split_ifs at hq
    injection hq with hq
    omega
  refine ⟨p, pre, _, h1, h2, ?_⟩
  rw [hexFormatted_reads HC T bits lc f hsign lay hno (hex_no_carry _ _ (hexFrac_lt T bits) _ hprec),
    hexShown_exact _ _ _ _ hprec, hex_fields_value]

/-- C81: with a precision of less than 13 digits, what is printed is as close to the number as that many digits allow: it is not
further than half a unit of the last digit. Missing: the case in which rounding changes the digit before the point, in which the
claim is false (`hex_round_carry_wrong`). -/
theorem hex_rounded_partial (L : Lawful D Rep) (HC : C.Lawful D Rep) (T : FloatT) (bits : Nat) (hfin : Finite T bits)
    (lc : Lettercase) (f : FloatFmt) (hf : FmtOk f) (hhex : f.nota = .hex) (n : Nat) (hp : f.precision = n) (hn : n < 13)
    (hsign : f.sign ≠ .fillInstead) (a : AlignFmt) (lay : Layout) (hl : LayoutOf a lay) (hno : lay.columns ≤ 0)
    (unitBits : Nat) (hc : HexCarryOk (hexLead T bits) (hexFrac T bits) (some n)) :
    ∃ p pre txt q, Printer.makePlain C toDecimal lc T bits f a = some (p, pre) ∧ Prints τ D Rep (p.print D C unitBits) txt ∧
      readHexNumber txt = some (signBit T bits, q) ∧
      |q - value T.mSize T.eSize (expBits T bits) (manBits T bits)| ≤ 1 / 2 * (1 / 16 ^ n) * 2 ^ hexExponent T bits := by
  have hprec : precision f.precision = some n := by
    unfold precision
    rw [if_neg (by omega), hp, Int.toNat_natCast]
  rw [← hprec] at hc
  obtain ⟨p, pre, h1, h2, -, -⟩ := hex_partial L HC T bits hfin lc f hf hhex a lay hl unitBits hc
  refine ⟨p, pre, _, _, h1, h2, hexFormatted_reads HC T bits lc f hsign lay hno hc, ?_⟩
  rw [hprec, ← hex_fields_value]
  exact hexShown_near _ _ _ _ hn

/-- C81 is false when rounding carries to the digit before the point: 0x1.ffffp+0 (about 1.99999) with one digit is printed as
`0x1.0p+0`, which is read as 1. -/
theorem hex_round_carry_wrong :
    ((shown u8 (Printer.makePlain u8 toDecimal .lower .double 0x3FFFFFF000000000 ⟨1, 0, .hex, .negativeOnly, false, false⟩ noAlign)).map
      fun r => readHexNumber r.1) = some (some (false, 1)) ∧
    value 52 11 (expBits .double 0x3FFFFFF000000000) (manBits .double 0x3FFFFFF000000000) = 131071 / 65536 := by decide +kernel

/-- the hypotheses of `hex_round_trip` and `hex_rounded_partial` are met: -1.2 in hexadecimal, without precision and with 5 digits -/
example : Finite .double 0xBFF3333333333333 ∧ FmtOk ⟨-1, 0, .hex, .positiveAlso, true, false⟩ ∧ FmtOk ⟨5, 30, .hex, .positiveAlso, true, false⟩ ∧
    LayoutOf noAlign ⟨0x20, .right, 0⟩ ∧
    HexCarryOk (hexLead .double 0xBFF3333333333333) (hexFrac .double 0xBFF3333333333333) (some 5) ∧
    ((shown u8 (Printer.makePlain u8 toDecimal .lower .double 0xBFF3333333333333 ⟨-1, 0, .hex, .positiveAlso, true, false⟩ noAlign)).map
      fun r => readHexNumber r.1) = some (some (true, value 52 11 1023 0x3333333333333)) ∧
    ((shown u8 (Printer.makePlain u8 toDecimal .lower .double 0xBFF3333333333333 ⟨5, 30, .hex, .positiveAlso, true, false⟩ noAlign)).map
      fun r => readHexNumber r.1) = some (some (true, 0x133333 / 16 ^ 5)) := by
  refine ⟨by unfold Float.Finite; decide, ⟨by decide, by decide⟩, ⟨by decide, by decide⟩,
    ⟨rfl, rfl, by unfold CInt.InI32; decide, ?_⟩, by unfold HexCarryOk; decide +kernel, by decide +kernel, by decide +kernel⟩
  unfold WidthSpec.IsRound; decide

end Strf.Dragonbox

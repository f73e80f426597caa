import Verif.Dragonbox.Props
import Verif.Float.RoundLemmas
/-
C82: numbers printed with a precision are rounded. How a text is read is in Float/ReadSpec.lean, what it means to be rounded in
Float/RoundSpec.lean, the value of the bits of a number in Dragonbox/Spec.lean.
-/
namespace Strf.Dragonbox
open Strf.Float Strf.Dragonbox.Spec
open Strf.IntDigits.Spec (Lettercase)
open Strf.IntPrinter (AlignFmt LayoutOf)
open Strf.IntPrinter.Spec (Showsign Layout)
open Strf.Print
open Strf.Dest (Dest Lawful Prints)
open Strf.Float.Spec (readNumber Rounded NoTieBetween lastPlace sciExp)

variable {σ : Type} {D : Dest Nat σ} {Rep : σ → List Nat → Prop} {C : Charset σ}

/-- the text of a number that is not aligned, and whose sign is not replaced -/
theorem finite_reads (HC : C.Lawful D Rep) (neg : Bool) (m : Nat) (e : Int) (lc : Lettercase) (f : FloatFmt)
    (hsign : f.sign ≠ .fillInstead) (lay : Layout) (hno : lay.columns ≤ 0) :
    readNumber (Float.finite C.encodeChar lc 0x2E 0x2C [] false f lay neg m e) =
      some (neg, ((Float.Spec.shape [] false (specNotation f.nota) (precision f.precision) f.showpoint m e).digits : ℚ) *
        10 ^ ((Float.Spec.shape [] false (specNotation f.nota) (precision f.precision) f.showpoint m e).exp.getD 0 -
          (Float.Spec.shape [] false (specNotation f.nota) (precision f.precision) f.showpoint m e).frac)) := by
  unfold Float.finite Float.Spec.arranged
  dsimp only
  obtain ⟨z, hz⟩ : ∃ z : Nat, z = (f.pad0 - ((Float.Spec.leaderColumns f.sign neg + ([] : List Nat).length +
    Float.Spec.columns [] false f.showpoint (Float.Spec.shape [] false (specNotation f.nota) (precision f.precision) f.showpoint
      m e) : Nat) : Int)).toNat := ⟨_, rfl⟩
  rw [← hz]
  have hn : ∀ c : Nat, (lay.columns - (c : Int)).toNat = 0 := by intro c; omega
  rw [hn, number_sep, HC.ascii 0x2E (by decide)]
  have hb : IntPrinter.Spec.before lay.align 0 = 0 := by cases lay.align <;> rfl
  have ht : IntPrinter.Spec.times C.encodeChar 0 lay.fill = [] := rfl
  rw [hb, ht, List.append_nil, List.nil_append, List.append_nil, List.append_assoc]
  have hlead : Float.Spec.leader C.encodeChar f.sign lay.fill neg =
      if neg then [0x2D] else if decide (f.sign = .positiveAlso) then [0x2B] else [] := by
    unfold Float.Spec.leader
    cases neg
    · cases hs : f.sign with
      | negativeOnly => rfl
      | positiveAlso => rfl
      | fillInstead => exact absurd hs hsign
    · rfl
  rw [hlead, readNumber_number]

/-- decimal numbers without trailing zeros are equal only if their digits and exponents are -/
theorem decimal_unique {m m' : Nat} {e e' : Int} (h : m % 10 ≠ 0) (h' : m' % 10 ≠ 0) (he : decimal m e = decimal m' e') : m = m' ∧ e = e' := by
  have aux : ∀ {m m' : Nat} {e e' : Int}, m % 10 ≠ 0 → decimal m e = decimal m' e' → ¬ e < e' := by
    intro m m' e e' h he hlt
    unfold decimal at he
    obtain ⟨k, hk⟩ : ∃ k : Nat, e' = e + (k + 1 : Nat) := ⟨(e' - e - 1).toNat, by omega⟩
    rw [hk, add_comm e, zpow_add₀ (by norm_num), zpow_natCast, ← mul_assoc] at he
    have he := mul_right_cancel₀ (by positivity : (10 : ℚ) ^ e ≠ 0) he
    have he : m = m' * 10 ^ (k + 1) := by exact_mod_cast he
    rw [Nat.pow_succ, ← Nat.mul_assoc] at he
    omega
  have e1 : e = e' := by
    rcases lt_trichotomy e e' with hlt | heq | hlt
    · exact absurd hlt (aux h he)
    · exact heq
    · exact absurd hlt (aux h' he.symm)
  subst e1
  unfold decimal at he
  have he := mul_right_cancel₀ (by positivity : (10 : ℚ) ^ e ≠ 0) he
  exact ⟨by exact_mod_cast he, rfl⟩

theorem makes_finite (L : Lawful D Rep) (HC : C.Lawful D Rep) (T : FloatT) (bits : Nat) (hfin : Finite T bits)
    (lc : Lettercase) (f : FloatFmt) (hf : FmtOk f) (hhex : f.nota ≠ .hex) (a : AlignFmt) (lay : Layout) (hl : LayoutOf a lay) (unitBits : Nat)
    (hc : f.nota = .general → CarryOk [] false .general (precision f.precision) f.showpoint f.sign (signBit T bits)
      (decode toDecimal T bits).m10 (decode toDecimal T bits).e10) :
    ∃ p pre, Printer.makePlain C toDecimal lc T bits f a = some (p, pre) ∧
      Prints τ D Rep (p.print D C unitBits) (Float.finite C.encodeChar lc 0x2E 0x2C [] false f lay (signBit T bits)
        (decode toDecimal T bits).m10 (decode toDecimal T bits).e10) := by
  cases hnota : f.nota with
  | fixed => obtain ⟨p, pre, h1, h2, -, -⟩ := fixed_exact L HC T bits hfin lc f hf hnota a lay hl unitBits; exact ⟨p, pre, h1, h2⟩
  | scientific => obtain ⟨p, pre, h1, h2, -, -⟩ := scientific_exact L HC T bits hfin lc f hf hnota a lay hl unitBits; exact ⟨p, pre, h1, h2⟩
  | general => obtain ⟨p, pre, h1, h2, -, -⟩ := general_partial L HC T bits hfin lc f hf hnota a lay hl unitBits (hc hnota); exact ⟨p, pre, h1, h2⟩
  | hex => exact absurd hnota hhex

/-- C82, in part: what is printed with a precision, in fixed, scientific or general notation, is the shortest decimal number that
stands for the number (`s`), rounded to the nearest with that many digits, ties to even. With any sign option that does not replace
the sign by a fill character, any number of leading zeros, with or without `*`, if no alignment is needed. Missing: the cases of the
general notation in which the printer is wrong (`CarryOk`, see C58), and that `s` is not always the number itself
(`double_rounding_wrong`). -/
theorem precision_rounds_partial (L : Lawful D Rep) (HC : C.Lawful D Rep) (T : FloatT) (bits : Nat) (hfin : Finite T bits)
    (lc : Lettercase) (f : FloatFmt) (hf : FmtOk f) (n : Nat) (hprec : f.precision = n) (hhex : f.nota ≠ .hex)
    (hsign : f.sign ≠ .fillInstead) (a : AlignFmt) (lay : Layout) (hl : LayoutOf a lay) (hno : lay.columns ≤ 0) (unitBits : Nat)
    (hc : f.nota = .general → CarryOk [] false .general (some n) f.showpoint f.sign (signBit T bits)
      (decode toDecimal T bits).m10 (decode toDecimal T bits).e10) :
    ∃ p pre txt q m e, Printer.makePlain C toDecimal lc T bits f a = some (p, pre) ∧ Prints τ D Rep (p.print D C unitBits) txt ∧
      readNumber txt = some (signBit T bits, q) ∧
      ReadsAs T.mSize T.eSize (expBits T bits) (manBits T bits) (decimal m e) ∧
      (¬ (expBits T bits = 0 ∧ manBits T bits = 0) → IsShortest T.mSize T.eSize (expBits T bits) (manBits T bits) m e) ∧
      Rounded (10 ^ lastPlace (specNotation f.nota) n (sciExp m e)) (decimal m e) q := by
  have hp : precision f.precision = some n := by unfold precision; rw [if_neg (by omega), hprec, Int.toNat_natCast]
  obtain ⟨p, pre, h1, h2⟩ := makes_finite L HC T bits hfin lc f hf hhex a lay hl unitBits (by rw [hp]; exact hc)
  refine ⟨p, pre, _, _, _, _, h1, h2, finite_reads HC _ _ _ lc f hsign lay hno, decode_reads hfin, fun h0 => ?_, ?_⟩
  · rcases decode_cases hfin with ⟨g1, g2, -, -⟩ | ⟨-, he⟩
    · exact absurd ⟨g1, g2⟩ h0
    · have := to_decimal_shortest T _ _ (isFinite_of hfin) h0
      rw [← he] at this
      exact this
  · rw [hp]
    exact shape_rounded _ _ _ _ _

/-- C82, in part: and so it is the number itself rounded, as `printf` does it, if no tie separates the number from its shortest
decimal. -/
theorem precision_nearest_partial (L : Lawful D Rep) (HC : C.Lawful D Rep) (T : FloatT) (bits : Nat) (hfin : Finite T bits)
    (lc : Lettercase) (f : FloatFmt) (hf : FmtOk f) (n : Nat) (hprec : f.precision = n) (hhex : f.nota ≠ .hex)
    (hsign : f.sign ≠ .fillInstead) (a : AlignFmt) (lay : Layout) (hl : LayoutOf a lay) (hno : lay.columns ≤ 0) (unitBits : Nat)
    (hc : f.nota = .general → CarryOk [] false .general (some n) f.showpoint f.sign (signBit T bits)
      (decode toDecimal T bits).m10 (decode toDecimal T bits).e10)
    (hno_tie : NoTieBetween (10 ^ lastPlace (specNotation f.nota) n (sciExp (decode toDecimal T bits).m10 (decode toDecimal T bits).e10))
      (decimal (decode toDecimal T bits).m10 (decode toDecimal T bits).e10) (value T.mSize T.eSize (expBits T bits) (manBits T bits))) :
    ∃ p pre txt q, Printer.makePlain C toDecimal lc T bits f a = some (p, pre) ∧ Prints τ D Rep (p.print D C unitBits) txt ∧
      readNumber txt = some (signBit T bits, q) ∧
      Rounded (10 ^ lastPlace (specNotation f.nota) n (sciExp (decode toDecimal T bits).m10 (decode toDecimal T bits).e10))
        (value T.mSize T.eSize (expBits T bits) (manBits T bits)) q := by
  have hp : precision f.precision = some n := by unfold precision; rw [if_neg (by omega), hprec, Int.toNat_natCast]
  obtain ⟨p, pre, h1, h2⟩ := makes_finite L HC T bits hfin lc f hf hhex a lay hl unitBits (by rw [hp]; exact hc)
  refine ⟨p, pre, _, _, h1, h2, finite_reads HC _ _ _ lc f hsign lay hno, ?_⟩
  rw [hp]
  refine Rounded.other (by positivity) ?_ (value_nonneg _ _ _ _) (shape_rounded _ _ _ _ _) hno_tie
  positivity

/-- C82: the number itself is rounded if it is a decimal number with no more digits than its shortest decimal (an integer of up to 15
digits, 0.5, 2.125…). -/
theorem precision_exact (L : Lawful D Rep) (HC : C.Lawful D Rep) (T : FloatT) (bits : Nat) (hfin : Finite T bits)
    (lc : Lettercase) (f : FloatFmt) (hf : FmtOk f) (n : Nat) (hprec : f.precision = n) (hhex : f.nota = .fixed ∨ f.nota = .scientific)
    (hsign : f.sign ≠ .fillInstead) (a : AlignFmt) (lay : Layout) (hl : LayoutOf a lay) (hno : lay.columns ≤ 0) (unitBits : Nat)
    {m : Nat} {e : Int} (hs : IsShortest T.mSize T.eSize (expBits T bits) (manBits T bits) m e)
    (hv : value T.mSize T.eSize (expBits T bits) (manBits T bits) = decimal m e) :
    ∃ p pre txt q, Printer.makePlain C toDecimal lc T bits f a = some (p, pre) ∧ Prints τ D Rep (p.print D C unitBits) txt ∧
      readNumber txt = some (signBit T bits, q) ∧
      Rounded (10 ^ lastPlace (specNotation f.nota) n (sciExp m e)) (value T.mSize T.eSize (expBits T bits) (manBits T bits)) q := by
  have hne : ¬ (expBits T bits = 0 ∧ manBits T bits = 0) := by
    rintro ⟨h1, h2⟩
    have h0 : value T.mSize T.eSize (expBits T bits) (manBits T bits) = 0 := by rw [h1, h2]; unfold value; simp
    rw [h0] at hv
    unfold decimal at hv
    have hm : (m : ℚ) = 0 := by
      rcases mul_eq_zero.mp hv.symm with h | h
      · exact h
      · exact absurd h (by positivity)
    have : m = 0 := by exact_mod_cast hm
    have := hs.stripped
    omega
  obtain ⟨p, pre, txt, q, m', e', h1, h2, h3, -, h5, h6⟩ := precision_rounds_partial L HC T bits hfin lc f hf n hprec
    (by rcases hhex with h | h <;> rw [h] <;> decide) hsign a lay hl hno unitBits
    (by rcases hhex with h | h <;> (intro hg; rw [h] at hg; cases hg))
  have h5 := h5 hne
  have heq : decimal m' e' = decimal m e := by
    have hd : digits m = digits m' := Nat.le_antisymm (hs.shortest _ _ h5.reads) (h5.shortest _ _ hs.reads)
    have := h5.closest m e hs.reads hd
    rw [hv, sub_self, abs_zero] at this
    exact sub_eq_zero.mp (abs_eq_zero.mp (le_antisymm this (abs_nonneg _)))
  obtain ⟨rfl, rfl⟩ := decimal_unique h5.stripped hs.stripped heq
  refine ⟨p, pre, txt, q, h1, h2, h3, ?_⟩
  rw [hv]
  exact h6

/-- C82 is false of the number itself: what is rounded is its shortest decimal. The double nearest to 2.675 is
2.67499999999999982236431605997495353221893310546875; `fixed(2.675, 2)` and `gen(2.675, 3)` print `2.68`, and the nearest with two
digits after the point is 2.67 (which is what `printf` prints with %.2f and %.3g; the documentation refers to %g). -/
theorem double_rounding_wrong :
    (shown u8 (Printer.makePlain u8 toDecimal .lower .double 0x4005666666666666 ⟨2, 0, .fixed, .negativeOnly, false, false⟩ noAlign)).map
      (fun r => readNumber r.1) = some (some (false, 268 / 100)) ∧
    (shown u8 (Printer.makePlain u8 toDecimal .lower .double 0x4005666666666666 ⟨3, 0, .general, .negativeOnly, false, false⟩ noAlign)).map
      (fun r => r.1) = some ("2.68".toList.map Char.toNat) ∧
    value 52 11 (expBits .double 0x4005666666666666) (manBits .double 0x4005666666666666) = 3011782250804019 / 1125899906842624 ∧
    ¬ Rounded (10 ^ lastPlace .fixed 2 0) (value 52 11 (expBits .double 0x4005666666666666) (manBits .double 0x4005666666666666)) (268 / 100) := by
  refine ⟨by decide +kernel, by decide +kernel, by decide +kernel, ?_⟩
  rintro ⟨k, -, h, -⟩
  revert h
  have hv : value 52 11 (expBits .double 0x4005666666666666) (manBits .double 0x4005666666666666) = 3011782250804019 / 1125899906842624 := by
    decide +kernel
  rw [hv]
  unfold lastPlace
  norm_num [abs_le]

/-- the hypotheses of `precision_rounds_partial` and `precision_nearest_partial` are met: 0.3 in general notation with two digits, and the
number lies between 0.295 and 0.305, as its shortest decimal does -/
example : Float.Finite .double 0x3FD3333333333333 ∧ FmtOk ⟨2, 0, .general, .positiveAlso, false, false⟩ ∧ LayoutOf noAlign ⟨0x20, .right, 0⟩ ∧
    CarryOk [] false .general (some 2) false .positiveAlso false (decode toDecimal .double 0x3FD3333333333333).m10 (decode toDecimal .double 0x3FD3333333333333).e10 ∧
    decode toDecimal .double 0x3FD3333333333333 = ⟨3, -1, false, false, false⟩ ∧
    NoTieBetween (10 ^ lastPlace .general 2 (sciExp 3 (-1))) (decimal 3 (-1)) (value 52 11 (expBits .double 0x3FD3333333333333) (manBits .double 0x3FD3333333333333)) := by
  refine ⟨by unfold Float.Finite; decide, ⟨by decide, by decide⟩, ⟨rfl, rfl, by unfold CInt.InI32; decide, ?_⟩, by decide +kernel, by decide +kernel, ?_⟩
  · unfold WidthSpec.IsRound; decide
  · have hv : value 52 11 (expBits .double 0x3FD3333333333333) (manBits .double 0x3FD3333333333333) = 5404319552844595 / 18014398509481984 := by
      decide +kernel
    have hx : lastPlace .general 2 (sciExp 3 (-1)) = -2 := by decide +kernel
    intro k
    rw [hv, hx]
    unfold decimal
    by_cases hk : k ≤ 29
    · left
      have : (k : ℚ) ≤ 29 := by exact_mod_cast hk
      rw [lt_min_iff]
      constructor <;> norm_num <;> linarith
    · right
      have : (30 : ℚ) ≤ k := by exact_mod_cast (by omega : 30 ≤ k)
      rw [max_lt_iff]
      constructor <;> norm_num <;> linarith

/-- and those of `precision_exact`: 2.125 with two digits is 2.12 -/
example : value 52 11 (expBits .double 0x4001000000000000) (manBits .double 0x4001000000000000) = decimal 2125 (-3) ∧
    toDecimal .double (expBits .double 0x4001000000000000) (manBits .double 0x4001000000000000) = (2125, -3) ∧
    (shown u8 (Printer.makePlain u8 toDecimal .lower .double 0x4001000000000000 ⟨2, 0, .fixed, .negativeOnly, false, false⟩ noAlign)).map
      (fun r => r.1) = some ("2.12".toList.map Char.toNat) := by decide +kernel

end Strf.Dragonbox

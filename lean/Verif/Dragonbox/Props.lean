import Verif.Float.Props
import Verif.Float.ReadBack
/-
C63, C64: which decimal number is printed for a binary floating-point number, and that it is read back as that number.
What "is read as" and "shortest" mean is in Dragonbox/Spec.lean; how a text is read, in Float/ReadSpec.lean.
-/
namespace Strf.Dragonbox
open Strf.Float Strf.Dragonbox.Spec
open Strf.IntDigits.Spec (Lettercase)
open Strf.IntPrinter (AlignFmt LayoutOf)
open Strf.IntPrinter.Spec (Showsign Layout)
open Strf.Print
open Strf.Dest (Dest Lawful Prints)
open Strf.Float.Spec (readNumber)

variable {σ : Type} {D : Dest Nat σ} {Rep : σ → List Nat → Prop} {C : Charset σ}

/-- C63: for every positive finite float or double, `to_decimal` returns a decimal number that is read back as that number
(rounding to nearest, ties to even), with as few digits as any that is, and as close to it as any of those. -/
theorem to_decimal_shortest (T : FloatT) (eb m : Nat) (hf : IsFinite T.mSize T.eSize eb m) (h0 : ¬ (eb = 0 ∧ m = 0)) :
    IsShortest T.mSize T.eSize eb m (toDecimal T eb m).1 (toDecimal T eb m).2 := (toDecimal_good hf h0).spec

/-- The specification is not vacuous and not ambiguous: a number is read as one finite number at most. -/
theorem reads_unique (T : FloatT) {eb m eb' m' : Nat} (hf : IsFinite T.mSize T.eSize eb m)
    (hf' : IsFinite T.mSize T.eSize eb' m') {q : ℚ} (h : ReadsAs T.mSize T.eSize eb m q)
    (h' : ReadsAs T.mSize T.eSize eb' m' q) : eb = eb' ∧ m = m' := by
  rcases lt_trichotomy (value T.mSize T.eSize eb m) (value T.mSize T.eSize eb' m') with hlt | heq | hlt
  · exact (reads_unique_aux (one_le_mSize T) (two_le_eSize T) hf hf' h h' hlt).elim
  · exact value_injective hf.2 hf'.2 heq
  · exact (reads_unique_aux (one_le_mSize T) (two_le_eSize T) hf' hf h' h hlt).elim

/-- and every finite number is read as itself -/
theorem reads_self (T : FloatT) {eb m : Nat} (hf : IsFinite T.mSize T.eSize eb m) :
    ReadsAs T.mSize T.eSize eb m (value T.mSize T.eSize eb m) := by
  refine ⟨finite_lt (two_le_eSize T) hf, fun eb' m' _ => ?_, fun eb' m' _ he hne => ?_⟩
  · rw [sub_self, abs_zero]; exact abs_nonneg _
  · rw [sub_self, abs_zero] at he
    exact absurd (sub_eq_zero.mp (abs_eq_zero.mp he.symm)) hne

/-- the decimal number used in all the notations -/
theorem decode_reads {T : FloatT} {bits : Nat} (hfin : Finite T bits) :
    ReadsAs T.mSize T.eSize (expBits T bits) (manBits T bits)
      (decimal (decode toDecimal T bits).m10 (decode toDecimal T bits).e10) := by
  rcases decode_cases hfin with ⟨h1, h2, h3, h4⟩ | ⟨h0, he⟩
  · have := reads_self T (isFinite_of hfin)
    have hv : value T.mSize T.eSize (expBits T bits) (manBits T bits) = 0 := by rw [h1, h2]; unfold value; simp
    rw [hv] at this
    rw [h3, h4]
    unfold decimal
    simpa using this
  · have := (toDecimal_good (isFinite_of hfin) h0).spec.reads
    rw [← he] at this
    exact this

/-- C64: a finite number printed without format is read back as that number. -/
theorem unformatted_round_trip (L : Lawful D Rep) (T : FloatT) (bits : Nat) (hfin : Finite T bits) (lc : Lettercase) :
    ∃ txt q, Prints τ D Rep ((Fast.make (decode toDecimal T bits) lc).print D) txt ∧
      readNumber txt = some (signBit T bits, q) ∧ ReadsAs T.mSize T.eSize (expBits T bits) (manBits T bits) q := by
  refine ⟨_, _, (unformatted_exact L T bits hfin lc).1, ?_, decode_reads hfin⟩
  have h := readNumber_number lc false (signBit T bits) false 0
    (Float.Spec.shape [] false .general none false (decode toDecimal T bits).m10 (decode toDecimal T bits).e10)
  rw [shape_value] at h
  exact h

/-- C64: and so is one printed in fixed, scientific or general notation without precision, with any sign option that does
not replace the sign by a fill character, any number of leading zeros, with or without `*`, if no alignment is needed. -/
theorem formatted_round_trip (L : Lawful D Rep) (HC : C.Lawful D Rep) (T : FloatT) (bits : Nat) (hfin : Finite T bits)
    (lc : Lettercase) (f : FloatFmt) (hprec : f.precision = -1) (hpad : f.pad0 ≤ 2147483647) (hhex : f.nota ≠ .hex)
    (hsign : f.sign ≠ .fillInstead) (a : AlignFmt) (lay : Layout) (hl : LayoutOf a lay) (hno : lay.columns ≤ 0)
    (unitBits : Nat) :
    ∃ p pre txt q, Printer.makePlain C toDecimal lc T bits f a = some (p, pre) ∧ Prints τ D Rep (p.print D C unitBits) txt ∧
      readNumber txt = some (signBit T bits, q) ∧ ReadsAs T.mSize T.eSize (expBits T bits) (manBits T bits) q := by
  obtain ⟨p, pre, h1, h2, -, -⟩ := no_precision_exact L HC T bits hfin lc f hprec hpad hhex a lay hl unitBits
  refine ⟨p, pre, _, _, h1, h2, ?_, decode_reads hfin⟩
  unfold Float.finite Float.Spec.arranged
  dsimp only
  obtain ⟨z, hz⟩ : ∃ z : Nat, z = (f.pad0 - ((Float.Spec.leaderColumns f.sign (signBit T bits) + ([] : List Nat).length +
    Float.Spec.columns [] false f.showpoint (Float.Spec.shape [] false (specNotation f.nota) (precision f.precision) f.showpoint
      (decode toDecimal T bits).m10 (decode toDecimal T bits).e10) : Nat) : Int)).toNat := ⟨_, rfl⟩
  rw [← hz]
  have hn : ∀ c : Nat, (lay.columns - (c : Int)).toNat = 0 := by intro c; omega
  rw [hn, number_sep, HC.ascii 0x2E (by decide)]
  have hb : IntPrinter.Spec.before lay.align 0 = 0 := by cases lay.align <;> rfl
  have ht : IntPrinter.Spec.times C.encodeChar 0 lay.fill = [] := rfl
  rw [hb, ht, List.append_nil, List.nil_append, List.append_nil, List.append_assoc]
  have hlead : Float.Spec.leader C.encodeChar f.sign lay.fill (signBit T bits) =
      if signBit T bits then [0x2D] else if decide (f.sign = .positiveAlso) then [0x2B] else [] := by
    unfold Float.Spec.leader
    cases signBit T bits
    · cases hs : f.sign with
      | negativeOnly => rfl
      | positiveAlso => rfl
      | fillInstead => exact absurd hs hsign
    · rfl
  rw [hlead, readNumber_number, hprec]
  have : precision (-1) = none := rfl
  rw [this, shape_value]
  rfl

/-- C64: two different finite numbers are never printed as the same text (for zero: 0 and -0 are different). -/
theorem unformatted_injective (L : Lawful D Rep) (T : FloatT) (bits bits' : Nat) (hb : bits < 2 ^ T.bits)
    (hb' : bits' < 2 ^ T.bits) (hfin : Finite T bits) (hfin' : Finite T bits') (lc : Lettercase) (hne : bits ≠ bits') :
    ∃ txt txt', Prints τ D Rep ((Fast.make (decode toDecimal T bits) lc).print D) txt ∧
      Prints τ D Rep ((Fast.make (decode toDecimal T bits') lc).print D) txt' ∧ txt ≠ txt' := by
  obtain ⟨txt, q, p1, r1, s1⟩ := unformatted_round_trip L T bits hfin lc
  obtain ⟨txt', q', p2, r2, s2⟩ := unformatted_round_trip L T bits' hfin' lc
  refine ⟨txt, txt', p1, p2, ?_⟩
  rintro rfl
  rw [r1, Option.some_inj, Prod.mk.injEq] at r2
  obtain ⟨hs, rfl⟩ := r2
  obtain ⟨he, hm⟩ := reads_unique T (isFinite_of hfin) (isFinite_of hfin') s1 s2
  apply hne
  rw [fields_surj T bits hb, fields_surj T bits' hb', hs, he, hm]

/-! ### undefined behaviour -/

/-- the number of entries of the tables of powers of ten (dragonbox.hpp 1020, 1111) -/
def cacheLength (T : FloatT) : Nat := match T with | .float => cacheFloat.length | .double => cacheDouble.length

/-- C65: the arithmetic of `int` in the conversion does not overflow, the tables are read inside their bounds, and no
number of bits to shift by is negative or too large: for every binary exponent, in the regular case … -/
theorem regular_in_bounds {T : FloatT} {eb m : Nat} (hf : IsFinite T.mSize T.eSize eb m) :
    let e := lastExp T.mSize T.eSize eb
    let tableLength := cacheLength T
    minK T ≤ kOf T e ∧ (kOf T e - minK T).toNat < tableLength ∧
    1 ≤ betaOf T e ∧ betaOf T e ≤ 9 ∧
    -2 ^ 31 ≤ e * floorShift 0 0x4d104d427de7fbcc 22 ∧ e * floorShift 0 0x4d104d427de7fbcc 22 < 2 ^ 31 ∧
    -2 ^ 31 ≤ kOf T e * floorShift 3 0x5269e12f346e2bf9 19 ∧ kOf T e * floorShift 3 0x5269e12f346e2bf9 19 < 2 ^ 31 ∧
    (halfUpper T < e → e ≤ by5Threshold T → 0 ≤ -kOf T e ∧ -kOf T e < tableSize T) := by
  intro e tableLength
  have he := expOk_of hf
  obtain ⟨-, hr, hc⟩ := check_of he
  have k1 := hr.k1
  have k2 := hr.k2
  have e1 := he.1
  have e2 := he.2
  have c1 : floorShift 0 0x4d104d427de7fbcc 22 = 1262611 := by decide +kernel
  have c2 : floorShift 3 0x5269e12f346e2bf9 19 = 1741647 := by decide +kernel
  rw [c1, c2]
  have ht : (maxK T - minK T).toNat < tableLength := by cases T <;> decide +kernel
  have hlen : e * (1262611 : Nat) < 2 ^ 31 ∧ -2 ^ 31 ≤ e * (1262611 : Nat) := by
    have e3 : minExp T ≤ e := e1
    have e4 : e < minExp T + expCount T := e2
    clear_value e
    cases T <;> simp only [minExp, expCount, FloatT.bias, FloatT.mSize, FloatT.eSize] at e3 e4 <;> omega
  refine ⟨k1, ?_, hr.b1, hr.b2, hlen.2, hlen.1, ?_, ?_, ?_⟩
  · show (kOf T (lastExp T.mSize T.eSize eb) - minK T).toNat < tableLength
    omega
  · show -2 ^ 31 ≤ kOf T (lastExp T.mSize T.eSize eb) * _
    cases T <;> simp only [minK, maxK] at k1 k2 <;> omega
  · show kOf T (lastExp T.mSize T.eSize eb) * _ < 2 ^ 31
    cases T <;> simp only [minK, maxK] at k1 k2 <;> omega
  · intro h1 h2
    have h3 := hc.h4 h1 h2
    show 0 ≤ -kOf T (lastExp T.mSize T.eSize eb) ∧ -kOf T (lastExp T.mSize T.eSize eb) < tableSize T
    omega

/-- the check for powers of two -/
def shorterRange (T : FloatT) (eb : Nat) : Bool :=
  let e : Int := (eb : Int) - T.bias - T.mSize
  let k := -floorLog10Pow2MinusLog10_4over3 e
  decide (minK T ≤ k ∧ k ≤ maxK T ∧ 0 ≤ e + floorLog2Pow10 k ∧ e + floorLog2Pow10 k ≤ 64 - T.mSize - 2 ∧
    -2 ^ 31 ≤ e * floorShift 0 0x4d104d427de7fbcc 22 - floorShift 0 0x1ffbfc2bbc780375 22 ∧
    e * floorShift 0 0x4d104d427de7fbcc 22 - floorShift 0 0x1ffbfc2bbc780375 22 < 2 ^ 31 ∧
    -2 ^ 31 ≤ k * floorShift 3 0x5269e12f346e2bf9 19 ∧ k * floorShift 3 0x5269e12f346e2bf9 19 < 2 ^ 31)

theorem shorterRange_float : ∀ eb < 255, eb ≠ 0 → shorterRange .float eb = true := by decide +kernel
set_option maxRecDepth 10000 in
theorem shorterRange_double : ∀ eb < 2047, eb ≠ 0 → shorterRange .double eb = true := by decide +kernel

/-- … and for powers of two. -/
theorem power_in_bounds {T : FloatT} {eb : Nat} (h0 : eb ≠ 0) (hf : IsFinite T.mSize T.eSize eb 0) :
    let e := lastExp T.mSize T.eSize eb
    let k := -floorLog10Pow2MinusLog10_4over3 e
    let tableLength := cacheLength T
    minK T ≤ k ∧ (k - minK T).toNat < tableLength ∧
    0 ≤ e + floorLog2Pow10 k ∧ e + floorLog2Pow10 k ≤ 64 - T.mSize - 2 ∧
    -2 ^ 31 ≤ e * floorShift 0 0x4d104d427de7fbcc 22 - floorShift 0 0x1ffbfc2bbc780375 22 ∧
    e * floorShift 0 0x4d104d427de7fbcc 22 - floorShift 0 0x1ffbfc2bbc780375 22 < 2 ^ 31 ∧
    -2 ^ 31 ≤ k * floorShift 3 0x5269e12f346e2bf9 19 ∧ k * floorShift 3 0x5269e12f346e2bf9 19 < 2 ^ 31 := by
  intro e k tableLength
  have h1 : shorterRange T eb = true := by
    have := hf.1
    cases T
    · exact shorterRange_float eb this h0
    · exact shorterRange_double eb this h0
  unfold shorterRange at h1
  dsimp only at h1
  rw [← lastExp_pos T h0, decide_eq_true_eq] at h1
  obtain ⟨a1, a2, a3⟩ := h1
  have ht : (maxK T - minK T).toNat < tableLength := by cases T <;> decide +kernel
  refine ⟨a1, ?_, a3⟩
  have : k ≤ maxK T := a2
  omega

/-! ### examples -/

/-- the hypotheses are met: 0.1, the smallest subnormal double, the greatest float, 2^23 -/
example : IsFinite FloatT.double.mSize FloatT.double.eSize 1019 2702159776422298 ∧
    toDecimal .double 1019 2702159776422298 = (1, -1) ∧ toDecimal .double 0 1 = (5, -324) ∧
    toDecimal .float 254 8388607 = (34028235, 31) ∧ toDecimal .float 150 0 = (8388608, 0) := by
  refine ⟨⟨by decide, by decide⟩, by decide +kernel⟩

/-- 0.1 is not 1/10: the value of the double differs, but 1/10 is read as it -/
example : ReadsAs 52 11 1019 2702159776422298 (decimal 1 (-1)) ∧ value 52 11 1019 2702159776422298 ≠ decimal 1 (-1) := by
  constructor
  · have := (to_decimal_shortest .double 1019 2702159776422298 ⟨by decide, by decide⟩ (by decide)).reads
    have h : toDecimal .double 1019 2702159776422298 = (1, -1) := by decide +kernel
    rw [h] at this
    exact this
  · unfold value decimal bias
    norm_num

end Strf.Dragonbox

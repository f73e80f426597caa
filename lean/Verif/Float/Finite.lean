import Verif.Float.Assemble
/-
Lemmas: initialization of the data of a finite number, and the constructors.
-/
namespace Strf.Float
open Strf.Float.Spec hiding Notation
open Strf.IntDigits Strf.IntDigits.Spec Strf.Numpunct Strf.Numpunct.Spec Strf.Print
open Strf.IntPrinter (b2n b2i AlignFmt signChar printFill printFill_ok LayoutOf)
open Strf.IntPrinter.Spec (Showsign Align Layout before times)
open Strf.Dest (Dest Lawful Prints)

variable {σ : Type} {D : Dest Nat σ} {Rep : σ → List Nat → Prop} {C : Charset σ}

/-- the notation a format asks for -/
def specNotation : Notation → Spec.Notation
  | .fixed => .fixed
  | .scientific => .scientific
  | _ => .general

/-- the precision a format asks for -/
def precision (p : Int) : Option Nat := if p = -1 then none else some p.toNat

/-- The cases in which the printer prints what it must. In the fixed notation with precision: the number rounded has as
many groups as the number not rounded. In the general notation with precision, when rounding carries (9.99 to 10) and so
raises the exponent: if that leads to the scientific notation, there were no separators to count; if not, there is no
sign; and when digits were removed and the point was asked for (`alt`), that no trailing zeros follow the point. -/
def CarryOk (gs : List Nat) (rep : Bool) (n : Spec.Notation) (prec : Option Nat) (alt : Bool) (sign : Showsign) (neg : Bool)
    (m : Nat) (e : Int) : Prop :=
  match n, prec with
  | .fixed, some p => (split gs rep (numeral 10 (roundAt m e (-(p : Int)) / 10 ^ p)).length).length =
      (split gs rep (max 1 ((numeral 10 m).length + e)).toNat).length
  | .general, some p =>
    ((significant (max p 1) m e).2 ≠ sciExp m e →
      (sciExp m e < ((max p 1 : Nat) : Int) → ((max p 1 : Nat) : Int) ≤ sciExp m e + 1 → (split gs rep (max p 1)).length = 1) ∧
      (¬ (sciExp m e + 1 < -4 ∨ ((max p 1 : Nat) : Int) ≤ sciExp m e + 1) → leaderColumns sign neg = 0)) ∧
    (alt = true → max p 1 < (numeral 10 m).length → (significant (max p 1) m e).2 = sciExp m e →
      (significant (max p 1) m e).1 % 10 = 0 →
      (if sciExp m e < -4 ∨ ((max p 1 : Nat) : Int) ≤ sciExp m e then max p 1 - 1
        else (((max p 1 : Nat) : Int) - 1 - sciExp m e).toNat) = 0)
  | _, _ => True

instance (gs : List Nat) (rep : Bool) (n : Spec.Notation) (prec : Option Nat) (alt : Bool) (sign : Showsign) (neg : Bool)
    (m : Nat) (e : Int) : Decidable (CarryOk gs rep n prec alt sign neg m e) := by
  unfold CarryOk
  split <;> infer_instance

/-- a finite number -/
def Finite (T : FloatT) (bits : Nat) : Prop := expBits T bits ≠ 2 ^ T.eSize - 1

/-- the formats considered: the precision and the width of pad0 are not absurd -/
structure FmtOk (f : FloatFmt) : Prop where
  precision : f.precision = -1 ∨ (0 ≤ f.precision ∧ f.precision ≤ 2 ^ 29)
  pad0 : f.pad0 ≤ 2147483647

theorem start_ok (f : FloatFmt) (a : AlignFmt) (neg : Bool) (m : Nat) (e : Int) (sub : Bool) :
    StartOk f.sign neg a.fill f.pad0 m e { Data.start f a neg with subnormal := sub, m := m, e := e } := by
  refine ⟨⟨rfl, rfl⟩, rfl, rfl, ?_, rfl, rfl, rfl⟩
  unfold Data.start leaderColumns leader
  cases neg <;> cases f.sign <;> rfl

theorem initData_good (toDec : ToDecimal) (T : FloatT) (bits : Nat) (hfin : Finite T bits)
    (hd : GoodDec (decode toDec T bits).m10 (decode toDec T bits).e10) {gs : List Nat} {rep : Bool} (hg : Valid gs rep)
    (f : FloatFmt) (hf : FmtOk f) (hhex : f.nota ≠ .hex) (a : AlignFmt) (lay : Layout) (hl : LayoutOf a lay)
    (hc : CarryOk gs rep (specNotation f.nota) (precision f.precision) f.showpoint f.sign (signBit T bits)
      (decode toDec T bits).m10 (decode toDec T bits).e10) :
    ∃ d', initData toDec T bits (ctor2 (args gs rep)) f a = initFill d' lay.columns (max d'.sub d'.pad0) lay.align ∧
      Good gs rep f.showpoint (shape gs rep (specNotation f.nota) (precision f.precision) f.showpoint
        (decode toDec T bits).m10 (decode toDec T bits).e10) f.sign (signBit T bits) lay.fill f.pad0 d' := by
  have hlay := hl.columns
  subst hlay
  unfold initData
  dsimp only
  rw [if_neg hfin, if_neg hhex]
  have hst : ∀ s, (if expBits T bits = 0 ∧ manBits T bits = 0 then
        ({ Data.start f a (signBit T bits) with subnormal := s, m := 0, e := 0 } : Data)
      else { Data.start f a (signBit T bits) with subnormal := s, m := (toDec T (expBits T bits) (manBits T bits)).1, e := (toDec T (expBits T bits) (manBits T bits)).2 }) =
      { Data.start f a (signBit T bits) with subnormal := s, m := (decode toDec T bits).m10, e := (decode toDec T bits).e10 } := by
    intro s
    unfold decode
    dsimp only
    split_ifs with h1 h2 h3
    · rfl
    · exact absurd h2 hfin
    · exact absurd h2 hfin
    · rfl
  have hs := start_ok f a (signBit T bits) (decode toDec T bits).m10 (decode toDec T bits).e10 (decide (expBits T bits = 0))
  rw [hst]
  generalize (decode toDec T bits).m10 = m at *
  generalize (decode toDec T bits).e10 = e at *
  generalize signBit T bits = neg at *
  have hp := hf.precision
  unfold precision at hc ⊢
  by_cases hp1 : f.precision = -1
  · simp only [hp1, if_true] at hc ⊢
    cases hn : f.nota with
    | hex => exact absurd hn hhex
    | general => exact withoutPrecisionGeneral_ok hg hs hd _ _ _
    | scientific => exact withoutPrecisionSci_ok hs hd _ _ _
    | fixed => exact withoutPrecisionFixed_ok hg hs hd _ _ _
  · simp only [hp1, if_false] at hc ⊢
    obtain ⟨p, hpp⟩ : ∃ p : Nat, f.precision = p := ⟨f.precision.toNat, by omega⟩
    have hp2 : p ≤ 2 ^ 29 := by omega
    rw [hpp] at hc ⊢
    rw [Int.toNat_natCast] at hc ⊢
    cases hn : f.nota with
    | hex => exact absurd hn hhex
    | general => rw [hn] at hc; exact withPrecisionGeneral_ok hg _ _ _ _ hp2 hs hd hc.1 hc.2
    | scientific => exact withPrecisionSci_ok hs hd _ _ _ _ hp2
    | fixed => rw [hn] at hc; exact withPrecisionFixed_ok hg hs hd _ _ _ _ hp2 hc

/-- a finite number, formatted -/
def finite (enc : Nat → List Nat) (lc : Lettercase) (point sep : Nat) (gs : List Nat) (rep : Bool) (f : FloatFmt) (lay : Layout)
    (neg : Bool) (m : Nat) (e : Int) : List Nat :=
  let sh := shape gs rep (specNotation f.nota) (precision f.precision) f.showpoint m e
  arranged enc f.sign f.pad0 lay neg [] (number lc (enc point) (enc sep) gs rep f.showpoint sh) (columns gs rep f.showpoint sh)

/-- its width -/
def finiteWidth (gs : List Nat) (rep : Bool) (f : FloatFmt) (lay : Layout) (neg : Bool) (m : Nat) (e : Int) : Nat :=
  arrangedWidth f.sign f.pad0 lay neg [] (columns gs rep f.showpoint
    (shape gs rep (specNotation f.nota) (precision f.precision) f.showpoint m e))

theorem split_nil_count (n : Nat) : (split [] false n).length = 1 := by rw [split_nil_length]

theorem plain_sep {alt : Bool} {sh : Shape} {d : Data} (h : FixedOk [] false alt sh d ∨ SciOk alt sh d) : d.sep = 0 := by
  rcases h with h | h
  · rw [h.sep, split_nil_count]; rfl
  · exact h.sep

theorem Same.ok {gs : List Nat} {rep alt : Bool} {sh : Shape} {d d' : Data} (s : Same d d') (h : FixedOk gs rep alt sh d ∨ SciOk alt sh d) :
    FixedOk gs rep alt sh d' ∨ SciOk alt sh d' := by
  rcases h with h | h
  · exact .inl (h.same s)
  · exact .inr (h.same s)

theorem valid_nil : Valid [] false := ⟨by decide, (fun g hg => absurd hg List.not_mem_nil), fun _ => rfl⟩

theorem plain_finite (L : Lawful D Rep) (HC : C.Lawful D Rep) (toDec : ToDecimal) (T : FloatT) (bits : Nat) (hfin : Finite T bits)
    (hd : GoodDec (decode toDec T bits).m10 (decode toDec T bits).e10) (lc : Lettercase)
    (f : FloatFmt) (hf : FmtOk f) (hhex : f.nota ≠ .hex) (a : AlignFmt) (lay : Layout) (hl : LayoutOf a lay) (unitBits : Nat)
    (hc : CarryOk [] false (specNotation f.nota) (precision f.precision) f.showpoint f.sign (signBit T bits)
      (decode toDec T bits).m10 (decode toDec T bits).e10) :
    ∃ p pre, Printer.makePlain C toDec lc T bits f a = some (p, pre) ∧
      Prints τ D Rep (p.print D C unitBits) (finite C.encodeChar lc 0x2E 0x2C [] false f lay (signBit T bits)
        (decode toDec T bits).m10 (decode toDec T bits).e10) ∧
      pre.width = finiteWidth [] false f lay (signBit T bits) (decode toDec T bits).m10 (decode toDec T bits).e10 ∧
      pre.size = (finite C.encodeChar lc 0x2E 0x2C [] false f lay (signBit T bits)
        (decode toDec T bits).m10 (decode toDec T bits).e10).length := by
  obtain ⟨d, e, hgood⟩ := initData_good toDec T bits hfin hd valid_nil f hf hhex a lay hl hc
  obtain ⟨d', r, e', hsame, hw, hsz, hpr⟩ := good_fill L HC valid_nil hf.pad0 lay hgood
  rw [e'] at e
  have hok := hsame.ok hgood.ok
  have hpt : C.charSize 0x2E = 1 := by rw [HC.size, HC.ascii _ (by decide)]; rfl
  refine ⟨⟨emptyWord, 1, b2n d'.showpoint, 0x2E, 0x2C, lc, d'⟩,
    ⟨r.fillcount + r.content, (r.content + fillSize C d'.fill r.fillcount).toNat⟩, ?_, ?_, ?_, ?_⟩
  · unfold Printer.makePlain
    rw [show emptyWord = ctor2 (args [] false) from rfl, e]
    rfl
  · refine hpr _ unitBits _ rfl rfl ⟨?_, ?_, ?_⟩ ?_
    · intro h; exact absurd (plain_sep hok) h
    · intro h; exact absurd (plain_sep hok) h
    · intro h; exact absurd (plain_sep hok) h
    · dsimp only; rw [hpt]; cases d'.showpoint <;> rfl
  · exact hw
  · dsimp only
    have h1 := hsz (number lc (C.encodeChar 0x2E) (C.encodeChar 0x2C) [] false f.showpoint
      (shape [] false (specNotation f.nota) (precision f.precision) f.showpoint (decode toDec T bits).m10 (decode toDec T bits).e10))
    have h2 := number_length hok lc (C.encodeChar 0x2E) (C.encodeChar 0x2C)
    rw [plain_sep hok, ← HC.size 0x2E, hpt] at h2
    unfold finite
    dsimp only
    have h3 : (if d'.showpoint = true then ((1 : Nat) : Int) - 1 else 0) = 0 := by split_ifs <;> rfl
    rw [h3] at h2
    omega

/-- The groups of digits that are used: those of the numpunct facet, if punctuation is asked for and the charset can encode
the separator; otherwise none. -/
def usedGroups (C : Charset σ) (np : Numpunct.Facet) (f : FloatFmt) (gs : List Nat) (rep : Bool) : List Nat × Bool :=
  if f.punctuate = true ∧ C.validate np.thousandsSep ≠ none then (gs, rep) else ([], false)

/-- the decimal point that is used -/
def usedPoint (np : Numpunct.Facet) (f : FloatFmt) : Nat := if f.punctuate then np.decimalPoint else 0x2E
/-- the separator that is used -/
def usedSep (np : Numpunct.Facet) (f : FloatFmt) : Nat := if f.punctuate then np.thousandsSep else 0x2C

/-- A separator that the charset encodes as one code unit has as its code unit the low bits of its code point. -/
def CastOk (C : Charset σ) (unitBits sep : Nat) : Prop :=
  C.validate sep ≠ none → (C.encodeChar sep).length = 1 → C.encodeChar sep = [sep % 2 ^ unitBits]

/-- `st` is what is written for a separator -/
theorem punct_finite_sep (L : Lawful D Rep) (HC : C.Lawful D Rep) (toDec : ToDecimal) (T : FloatT) (bits : Nat) (hfin : Finite T bits)
    (hd : GoodDec (decode toDec T bits).m10 (decode toDec T bits).e10) (lc : Lettercase) (np10 np16 : Numpunct.Facet)
    {gs : List Nat} {rep : Bool} (hg : Valid gs rep) (hgr : np10.grouping = ctor2 (args gs rep))
    (f : FloatFmt) (hf : FmtOk f) (hhex : f.nota ≠ .hex) (a : AlignFmt) (lay : Layout) (hl : LayoutOf a lay) (unitBits : Nat)
    (st : List Nat) (hst : (usedGroups C np10 f gs rep).1 ≠ [] →
      ∀ d, FixedOk (usedGroups C np10 f gs rep).1 (usedGroups C np10 f gs rep).2 f.showpoint
        (shape (usedGroups C np10 f gs rep).1 (usedGroups C np10 f gs rep).2 (specNotation f.nota) (precision f.precision) f.showpoint
          (decode toDec T bits).m10 (decode toDec T bits).e10) d →
      (0 ≤ d.e → (C.encodeChar (usedSep np10 f)).length = 1 → st = [usedSep np10 f % 2 ^ unitBits]) ∧
      (¬ (0 ≤ d.e ∧ (C.encodeChar (usedSep np10 f)).length = 1) → st = C.encodeChar (usedSep np10 f)))
    (hc : CarryOk (usedGroups C np10 f gs rep).1 (usedGroups C np10 f gs rep).2 (specNotation f.nota) (precision f.precision)
      f.showpoint f.sign (signBit T bits) (decode toDec T bits).m10 (decode toDec T bits).e10) :
    ∃ p pre, Printer.makePunct C toDec lc np10 np16 T bits f a = some (p, pre) ∧
      Prints τ D Rep (p.print D C unitBits) (arranged C.encodeChar f.sign f.pad0 lay (signBit T bits) []
        (number lc (C.encodeChar (usedPoint np10 f)) st (usedGroups C np10 f gs rep).1 (usedGroups C np10 f gs rep).2 f.showpoint
          (shape (usedGroups C np10 f gs rep).1 (usedGroups C np10 f gs rep).2 (specNotation f.nota) (precision f.precision) f.showpoint
            (decode toDec T bits).m10 (decode toDec T bits).e10))
        (columns (usedGroups C np10 f gs rep).1 (usedGroups C np10 f gs rep).2 f.showpoint
          (shape (usedGroups C np10 f gs rep).1 (usedGroups C np10 f gs rep).2 (specNotation f.nota) (precision f.precision) f.showpoint
            (decode toDec T bits).m10 (decode toDec T bits).e10))) ∧
      pre.width = finiteWidth (usedGroups C np10 f gs rep).1 (usedGroups C np10 f gs rep).2 f lay (signBit T bits)
        (decode toDec T bits).m10 (decode toDec T bits).e10 ∧
      pre.size = (finite C.encodeChar lc (usedPoint np10 f) (usedSep np10 f)
        (usedGroups C np10 f gs rep).1 (usedGroups C np10 f gs rep).2 f lay (signBit T bits)
        (decode toDec T bits).m10 (decode toDec T bits).e10).length := by
  have hvalid : Valid (usedGroups C np10 f gs rep).1 (usedGroups C np10 f gs rep).2 := by
    unfold usedGroups; split_ifs
    · exact hg
    · exact valid_nil
  have hgrp : (if f.punctuate then validGrouping C (usedSep np10 f) np10.grouping else emptyWord) =
      ctor2 (args (usedGroups C np10 f gs rep).1 (usedGroups C np10 f gs rep).2) := by
    unfold usedGroups usedSep validGrouping
    cases hpu : f.punctuate
    · simp; rfl
    · simp only [if_true, true_and]
      cases hv : C.validate np10.thousandsSep
      · simp; rfl
      · simpa using hgr
  have hsize : (usedGroups C np10 f gs rep).1 ≠ [] →
      (if f.punctuate then validSepSize C (usedSep np10 f) else 1) = (C.encodeChar (usedSep np10 f)).length := by
    unfold usedGroups usedSep validSepSize
    cases hpu : f.punctuate
    · simp
    · simp only [if_true, true_and]
      cases hv : C.validate np10.thousandsSep
      · simp
      · intro _; exact HC.valid _ _ hv
  have hnil : (usedGroups C np10 f gs rep).1 = [] → (usedGroups C np10 f gs rep).2 = false := fun h => hvalid.2.2 h
  have hpoint : (if f.punctuate then (if f.nota ≠ .hex then np10.decimalPoint else np16.decimalPoint) else 0x2E) = usedPoint np10 f := by
    rw [if_pos hhex]; rfl
  generalize hsepd : usedSep np10 f = sep at *
  generalize usedPoint np10 f = point at *
  generalize (usedGroups C np10 f gs rep).1 = gs' at *
  generalize (usedGroups C np10 f gs rep).2 = rep' at *
  obtain ⟨d, e, hgood⟩ := initData_good toDec T bits hfin hd hvalid f hf hhex a lay hl hc
  obtain ⟨d', r, e', hsame, hw, hsz, hpr⟩ := good_fill L HC hvalid hf.pad0 lay hgood
  rw [e'] at e
  have hok := hsame.ok hgood.ok
  have hsep0 : d'.sep ≠ 0 → gs' ≠ [] := by
    intro h h'; rw [hnil h', h'] at hok; exact h (plain_sep hok)
  unfold Printer.makePunct
  rw [hpoint]
  rw [show (if f.punctuate then np10.thousandsSep else 0x2C) = sep from hsepd]
  dsimp only
  rw [hgrp, e]
  refine ⟨_, _, rfl, ?_, ?_, ?_⟩
  · have hstd : d'.sep ≠ 0 → (0 ≤ d'.e → (C.encodeChar sep).length = 1 → st = [sep % 2 ^ unitBits]) ∧
        (¬ (0 ≤ d'.e ∧ (C.encodeChar sep).length = 1) → st = C.encodeChar sep) := by
      intro h
      rcases hok with hok | hok
      · exact hst (hsep0 h) d' hok
      · exact absurd hok.sep h
    refine hpr _ unitBits st rfl rfl ⟨?_, ?_, ?_⟩ rfl
    · intro h; exact hsize (hsep0 h)
    · intro h; exact (hstd h).1
    · intro h; exact (hstd h).2
  · exact hw
  · dsimp only
    have h1 := hsz (number lc (C.encodeChar point) (C.encodeChar sep) gs' rep' f.showpoint
      (shape gs' rep' (specNotation f.nota) (precision f.precision) f.showpoint (decode toDec T bits).m10 (decode toDec T bits).e10))
    have h2 := number_length hok lc (C.encodeChar point) (C.encodeChar sep)
    have h3 : (if f.nota ≠ .hex ∧ d'.sep ≠ 0 then d'.sep * (((if f.punctuate then validSepSize C sep else 1 : Nat) : Int) - 1) else 0)
        = d'.sep * (((C.encodeChar sep).length : Int) - 1) := by
      by_cases h : d'.sep = 0
      · rw [h]; simp
      · rw [if_pos ⟨hhex, h⟩, hsize (hsep0 h)]
    have h4 : (if d'.showpoint = true then ((if d'.showpoint = true then C.charSize point else 0 : Nat) : Int) - 1 else 0) =
        (if d'.showpoint = true then ((C.encodeChar point).length : Int) - 1 else 0) := by
      split_ifs
      · rw [HC.size]
      · rfl
    rw [h3, h4]
    unfold finite
    dsimp only
    omega

theorem punct_finite (L : Lawful D Rep) (HC : C.Lawful D Rep) (toDec : ToDecimal) (T : FloatT) (bits : Nat) (hfin : Finite T bits)
    (hd : GoodDec (decode toDec T bits).m10 (decode toDec T bits).e10) (lc : Lettercase) (np10 np16 : Numpunct.Facet)
    {gs : List Nat} {rep : Bool} (hg : Valid gs rep) (hgr : np10.grouping = ctor2 (args gs rep))
    (f : FloatFmt) (hf : FmtOk f) (hhex : f.nota ≠ .hex) (a : AlignFmt) (lay : Layout) (hl : LayoutOf a lay) (unitBits : Nat)
    (hcast : f.punctuate = true → CastOk C unitBits np10.thousandsSep)
    (hc : CarryOk (usedGroups C np10 f gs rep).1 (usedGroups C np10 f gs rep).2 (specNotation f.nota) (precision f.precision)
      f.showpoint f.sign (signBit T bits) (decode toDec T bits).m10 (decode toDec T bits).e10) :
    ∃ p pre, Printer.makePunct C toDec lc np10 np16 T bits f a = some (p, pre) ∧
      Prints τ D Rep (p.print D C unitBits) (finite C.encodeChar lc (usedPoint np10 f) (usedSep np10 f)
        (usedGroups C np10 f gs rep).1 (usedGroups C np10 f gs rep).2 f lay (signBit T bits)
        (decode toDec T bits).m10 (decode toDec T bits).e10) ∧
      pre.width = finiteWidth (usedGroups C np10 f gs rep).1 (usedGroups C np10 f gs rep).2 f lay (signBit T bits)
        (decode toDec T bits).m10 (decode toDec T bits).e10 ∧
      pre.size = (finite C.encodeChar lc (usedPoint np10 f) (usedSep np10 f)
        (usedGroups C np10 f gs rep).1 (usedGroups C np10 f gs rep).2 f lay (signBit T bits)
        (decode toDec T bits).m10 (decode toDec T bits).e10).length := by
  refine punct_finite_sep L HC toDec T bits hfin hd lc np10 np16 hg hgr f hf hhex a lay hl unitBits
    (C.encodeChar (usedSep np10 f)) (fun hne d _ => ⟨fun _ => ?_, fun _ => rfl⟩) hc
  revert hne
  unfold usedGroups usedSep
  cases hpu : f.punctuate
  · simp
  · simp only [if_true, true_and]
    split_ifs with hv
    · intro _; exact hcast hpu hv
    · simp

end Strf.Float

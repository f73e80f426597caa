import Verif.Float.Finite
/-
Lemmas: the printer when what it counts is not what it prints, which happens when rounding carries.
-/
namespace Strf.Float
open Strf.Float.Spec hiding Notation
open Strf.IntDigits Strf.IntDigits.Spec Strf.Numpunct Strf.Numpunct.Spec Strf.Print
open Strf.IntPrinter (b2n b2i AlignFmt signChar printFill printFill_ok LayoutOf)
open Strf.IntPrinter.Spec (Showsign Align Layout before times)
open Strf.Dest (Dest Lawful Prints)

variable {σ : Type} {D : Dest Nat σ} {Rep : σ → List Nat → Prop} {C : Charset σ}

/-- the printer with another count of separators and another grouping -/
def Printer.change (p : Printer) (s : Int) (g : Nat) : Printer := { p with data := { p.data with sep := s }, grouping := g }

/-- when the count of separators, or the grouping, does not matter -/
theorem print_change (p : Printer) (s : Int) (g : Nat) (unitBits : Nat)
    (h : p.data.form = .sci ∨ (p.data.form = .fixed ∧ p.data.sep = 0 ∧ s = 0) ∨
      (p.data.form = .fixed ∧ 0 ≤ p.data.e ∧ p.data.sep ≠ 0 ∧ s ≠ 0 ∧ g = p.grouping) ∨ (s = p.data.sep ∧ g = p.grouping)) (st : σ) :
    p.print D C unitBits st = (p.change s g).print D C unitBits st := by
  rcases h with h | ⟨h, h0, rfl⟩ | ⟨h, he, h0, hs, rfl⟩ | ⟨rfl, rfl⟩
  · unfold Printer.print Printer.change
    simp only [h]
    rfl
  · unfold Printer.print Printer.change
    simp only [h]
    unfold printFixed printInteger printIntPart
    simp only [h0, if_true]
    rfl
  · unfold Printer.print Printer.change
    simp only [h]
    unfold printFixed printInteger
    simp only [h0, hs, he, ge_iff_le, if_true, if_false]
    rfl
  · rfl

theorem initFill_sep (d : Data) (s width content : Int) (al : Align) :
    initFill { d with sep := s } width content al = (initFill d width content al).map fun r => ({ r.1 with sep := s }, r.2) := by
  unfold initFill adaptFillSign
  cases al <;> dsimp only <;> split_ifs <;> rfl

/-- The data `d` are right but for the count of separators, which should be `s`, and the columns counted, which should be `t` more.
What is printed is as the columns counted, `cols`, have it; the shape of the number is right. -/
theorem near_fill (L : Lawful D Rep) (HC : C.Lawful D Rep) {gs : List Nat} {rep alt : Bool} (hg : Valid gs rep)
    {sh : Shape} {sign : Showsign} {neg : Bool} {pad0 : Int} (hpad : pad0 ≤ 2147483647) (lay : Layout) {d : Data} {s t : Int} {cols : Nat}
    (h : Good gs rep alt sh sign neg lay.fill pad0 { d with sep := s, sub := d.sub + t }) (hb : d.sub ≤ 2147483647)
    (hcols : (cols : Int) + t = columns gs rep alt sh) :
    ∃ d' r, initFill d lay.columns (max d.sub d.pad0) lay.align = some (d', r) ∧ Same d d' ∧
      (FixedOk gs rep alt sh { d' with sep := s } ∨ SciOk alt sh { d' with sep := s }) ∧
      r.fillcount + r.content = arrangedWidth sign pad0 lay neg [] cols ∧
      (∀ txt : List Nat, r.content + fillSize C d'.fill r.fillcount + txt.length =
        (arranged C.encodeChar sign pad0 lay neg [] txt cols).length + cols) ∧
      ∀ (p : Printer) (unitBits : Nat) (st : List Nat), p.data = d' →
        (p.data.form = .sci ∨ (p.data.form = .fixed ∧ p.data.sep = 0 ∧ s = 0) ∨
          (p.data.form = .fixed ∧ 0 ≤ p.data.e ∧ p.data.sep ≠ 0 ∧ s ≠ 0 ∧ ctor2 (args gs rep) = p.grouping) ∨
          (s = p.data.sep ∧ ctor2 (args gs rep) = p.grouping)) →
        SepOk C unitBits (p.change s (ctor2 (args gs rep))) st →
        (p.pointSize = if p.data.showpoint then C.charSize p.point else 0) →
        Prints τ D Rep (p.print D C unitBits) (arranged C.encodeChar sign pad0 lay neg []
          (number p.lc (C.encodeChar p.point) st gs rep alt sh) cols) := by
  have hsub := h.sub
  dsimp only at hsub
  have hok : FixedOk gs rep alt sh { d with sep := s } ∨ SciOk alt sh { d with sep := s } := by
    rcases h.ok with h | h
    · exact .inl ⟨h.form, h.exp, h.lt, h.digcount, h.zero, h.extra, h.digits, h.frac, h.point, h.sep⟩
    · exact .inr ⟨h.form, h.exp, h.small, h.lt, h.digcount, h.extra, h.digits, h.frac, h.point, h.sep⟩
  obtain ⟨d', r, e, hsame, hw, hsz, hpr⟩ := counted_fill (τ := τ) L HC hg hpad lay (cols := cols) hok ⟨h.sg.char, h.sg.shown⟩ h.fill h.pad0
    (by dsimp only; push_cast; omega) hb
  dsimp only at e
  rw [initFill_sep] at e
  obtain ⟨r0, e0, er⟩ := Option.map_eq_some_iff.mp e
  obtain ⟨d0, r0⟩ := r0
  injection er with e1 e2
  dsimp only at e1 e2
  subst e2
  have hd' : d' = { d0 with sep := s } := e1.symm
  subst hd'
  have hs0 : d0.sep = d.sep := by
    have := initFill_sep d d.sep lay.columns (max d.sub d.pad0) lay.align
    rw [show ({ d with sep := d.sep } : Data) = d from rfl, e0] at this
    simp only [Option.map_some, Option.some.injEq, Prod.mk.injEq, and_true] at this
    rw [this]
  refine ⟨d0, r0, e0, ⟨hsame.form, hsame.sign, hsame.showpoint, hsame.subnormal, hsame.extra, hsame.digcount, hs0, hsame.fill, hsame.m, hsame.e⟩,
    hsame.ok hok, hw, hsz, ?_⟩
  intro p unitBits st hpd hch hsep hps
  subst hpd
  have := hpr (p.change s (ctor2 (args gs rep))) unitBits st rfl rfl hsep hps
  exact prints_congr this fun s => print_change p _ _ unitBits hch s

/-- the same for the constructor -/
theorem punct_near (L : Lawful D Rep) (HC : C.Lawful D Rep) (toDec : ToDecimal) (T : FloatT) (bits : Nat)
    (lc : Lettercase) (np10 np16 : Numpunct.Facet)
    {gs : List Nat} {rep : Bool} (hg : Valid gs rep) (hgr : np10.grouping = ctor2 (args gs rep))
    (f : FloatFmt) (hpad : f.pad0 ≤ 2147483647) (hhex : f.nota ≠ .hex) (a : AlignFmt) (lay : Layout) (unitBits : Nat)
    (hcast : f.punctuate = true → CastOk C unitBits np10.thousandsSep)
    {gs2 : List Nat} {rep2 : Bool} (hg2 : Valid gs2 rep2) {sh : Shape} {neg : Bool} {d : Data} {s t : Int} {cols : Nat}
    (hinit : initData toDec T bits (ctor2 (args (usedGroups C np10 f gs rep).1 (usedGroups C np10 f gs rep).2)) f a =
      initFill d lay.columns (max d.sub d.pad0) lay.align)
    (h : Good gs2 rep2 f.showpoint sh f.sign neg lay.fill f.pad0 { d with sep := s, sub := d.sub + t }) (hb : d.sub ≤ 2147483647)
    (hcols : (cols : Int) + t = columns gs2 rep2 f.showpoint sh)
    (hch : d.form = .sci ∨ (d.form = .fixed ∧ d.sep = 0 ∧ s = 0) ∨
      ((d.form = .fixed ∧ 0 ≤ d.e ∧ d.sep ≠ 0 ∧ s ≠ 0 ∨ s = d.sep) ∧
        gs2 = (usedGroups C np10 f gs rep).1 ∧ rep2 = (usedGroups C np10 f gs rep).2))
    (hne : d.sep ≠ 0 → (usedGroups C np10 f gs rep).1 ≠ []) (hs0 : s ≠ 0 → d.sep ≠ 0) :
    ∃ p pre, Printer.makePunct C toDec lc np10 np16 T bits f a = some (p, pre) ∧
      Prints τ D Rep (p.print D C unitBits) (arranged C.encodeChar f.sign f.pad0 lay neg []
        (number lc (C.encodeChar (usedPoint np10 f)) (C.encodeChar (usedSep np10 f)) gs2 rep2 f.showpoint sh) cols) ∧
      pre.width = arrangedWidth f.sign f.pad0 lay neg [] cols ∧
      pre.size = (((arranged C.encodeChar f.sign f.pad0 lay neg []
        (number lc (C.encodeChar (usedPoint np10 f)) (C.encodeChar (usedSep np10 f)) gs2 rep2 f.showpoint sh) cols).length : Int) - t +
        (d.sep - s) * (((C.encodeChar (usedSep np10 f)).length : Int) - 1)).toNat := by
  have hgrp : (if f.punctuate then validGrouping C (usedSep np10 f) np10.grouping else emptyWord) =
      ctor2 (args (usedGroups C np10 f gs rep).1 (usedGroups C np10 f gs rep).2) := by
    unfold usedGroups usedSep validGrouping
    cases hpu : f.punctuate
    · simp; rfl
    · simp only [if_true, true_and]
      cases hv : C.validate np10.thousandsSep
      · simp; rfl
      · simpa using hgr
  have hsize : (usedGroups C np10 f gs rep).1 ≠ [] →
      (if f.punctuate then validSepSize C (usedSep np10 f) else 1) = (C.encodeChar (usedSep np10 f)).length := by
    unfold usedGroups usedSep validSepSize
    cases hpu : f.punctuate
    · simp
    · simp only [if_true, true_and]
      cases hv : C.validate np10.thousandsSep
      · simp
      · intro _; exact HC.valid _ _ hv
  have hcastd : (usedGroups C np10 f gs rep).1 ≠ [] → (C.encodeChar (usedSep np10 f)).length = 1 →
      C.encodeChar (usedSep np10 f) = [usedSep np10 f % 2 ^ unitBits] := by
    unfold usedGroups usedSep
    cases hpu : f.punctuate
    · simp
    · simp only [if_true, true_and]
      split_ifs with hv
      · intro _; exact hcast hpu hv
      · simp
  have hpoint : (if f.punctuate then (if f.nota ≠ .hex then np10.decimalPoint else np16.decimalPoint) else 0x2E) = usedPoint np10 f := by
    rw [if_pos hhex]; rfl
  generalize hsepd : usedSep np10 f = sep at *
  generalize usedPoint np10 f = point at *
  generalize (usedGroups C np10 f gs rep).1 = gs' at *
  generalize (usedGroups C np10 f gs rep).2 = rep' at *
  obtain ⟨d', r, e', hsame, hok, hw, hsz, hpr⟩ := near_fill (τ := τ) L HC hg2 hpad lay h hb hcols
  rw [e'] at hinit
  unfold Printer.makePunct
  rw [hpoint]
  rw [show (if f.punctuate then np10.thousandsSep else 0x2C) = sep from hsepd]
  dsimp only
  rw [hgrp, hinit]
  have hne' : d'.sep ≠ 0 → gs' ≠ [] := by rw [hsame.sep]; exact hne
  have hs0' : s ≠ 0 → gs' ≠ [] := fun h => hne (hs0 h)
  refine ⟨_, _, rfl, ?_, ?_, ?_⟩
  · refine hpr _ unitBits _ rfl ?_ ⟨?_, ?_, ?_⟩ rfl
    · dsimp only
      rw [hsame.form, hsame.sep, hsame.e]
      rcases hch with h | h | ⟨h | h, rfl, rfl⟩
      · exact .inl h
      · exact .inr (.inl h)
      · exact .inr (.inr (.inl ⟨h.1, h.2.1, h.2.2.1, h.2.2.2, rfl⟩))
      · exact .inr (.inr (.inr ⟨h, rfl⟩))
    · intro h; exact hsize (hs0' h)
    · intro h _; exact hcastd (hs0' h)
    · intro h _; rfl
  · exact hw
  · dsimp only
    have h1 := hsz (number lc (C.encodeChar point) (C.encodeChar sep) gs2 rep2 f.showpoint sh)
    have h2 := number_length hok lc (C.encodeChar point) (C.encodeChar sep)
    dsimp only at h2
    have h3 : (if f.nota ≠ .hex ∧ d'.sep ≠ 0 then d'.sep * (((if f.punctuate then validSepSize C sep else 1 : Nat) : Int) - 1) else 0)
        = d'.sep * (((C.encodeChar sep).length : Int) - 1) := by
      by_cases h : d'.sep = 0
      · rw [h]; simp
      · rw [if_pos ⟨hhex, h⟩, hsize (hne' h)]
    have h4 : (if d'.showpoint = true then ((if d'.showpoint = true then C.charSize point else 0 : Nat) : Int) - 1 else 0) =
        (if d'.showpoint = true then ((C.encodeChar point).length : Int) - 1 else 0) := by
      split_ifs
      · rw [HC.size]
      · rfl
    rw [h3, h4, hsame.sep, Int.sub_mul]
    congr 1
    rw [hsame.fill] at h1 ⊢
    omega

end Strf.Float

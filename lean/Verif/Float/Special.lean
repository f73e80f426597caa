import Verif.Float.Finite
/-
Lemmas: infinity and NaN.
-/
namespace Strf.Float
open Strf.Float.Spec hiding Notation
open Strf.IntDigits Strf.IntDigits.Spec Strf.Numpunct Strf.Numpunct.Spec Strf.Print
open Strf.IntPrinter (b2n b2i AlignFmt signChar printFill printFill_ok LayoutOf times_length)
open Strf.IntPrinter.Spec (Showsign Align Layout before times)
open Strf.Dest (Dest Lawful Prints)

variable {σ : Type} {D : Dest Nat σ} {Rep : σ → List Nat → Prop} {C : Charset σ}

/-- the layout of infinity and NaN: there are no zeros; instead, `pad0` is a minimal width -/
def specialLayout (f : FloatFmt) (lay : Layout) : Layout := { lay with columns := max f.pad0 lay.columns }

/-- infinity or NaN, formatted -/
def specialText (enc : Nat → List Nat) (lc : Lettercase) (f : FloatFmt) (lay : Layout) (neg nan : Bool) : List Nat :=
  arranged enc f.sign 0 (specialLayout f lay) neg [] (special lc nan) 3

/-- its width -/
def specialWidth (f : FloatFmt) (lay : Layout) (neg : Bool) : Nat := arrangedWidth f.sign 0 (specialLayout f lay) neg [] 3

theorem special_chars (lc : Lettercase) (nan : Bool) : special lc nan = if nan then nanChars lc else infChars lc := by
  cases lc <;> cases nan <;> rfl

theorem special_length (lc : Lettercase) (nan : Bool) : (special lc nan).length = 3 := by cases lc <;> cases nan <;> rfl

theorem special_fill (L : Lawful D Rep) (HC : C.Lawful D Rep) (toDec : ToDecimal) (T : FloatT) (bits : Nat) (hfin : ¬ Finite T bits)
    (grp : Nat) (f : FloatFmt) (a : AlignFmt) (lay : Layout) (hl : LayoutOf a lay) :
    ∃ d r, initData toDec T bits grp f a = some (d, r) ∧ d.sep = 0 ∧ d.showpoint = false ∧
      r.fillcount + r.content = specialWidth f lay (signBit T bits) ∧
      (∀ lc, r.content + fillSize C d.fill r.fillcount =
        (specialText C.encodeChar lc f lay (signBit T bits) (decide (manBits T bits ≠ 0))).length) ∧
      ∀ (p : Printer) (unitBits : Nat), p.data = d →
        Prints τ D Rep (p.print D C unitBits) (specialText C.encodeChar p.lc f lay (signBit T bits) (decide (manBits T bits ≠ 0))) := by
  have hlay := hl.columns
  subst hlay
  have hfin : expBits T bits = 2 ^ T.eSize - 1 := not_not.mp hfin
  unfold initData
  dsimp only
  rw [if_pos hfin]
  have hs := start_ok f a (signBit T bits) 0 0 false
  obtain ⟨d, hdd⟩ : ∃ d : Data, ({ Data.start f a (signBit T bits) with form := if manBits T bits = 0 then Form.inf else .nan, sub := (Data.start f a (signBit T bits)).sub + 3 } : Data) = d := ⟨_, rfl⟩
  have hif : ∀ (i : Decidable ((Data.start f a (signBit T bits)).pad0 > Width.round a.width)), @ite Int ((Data.start f a (signBit T bits)).pad0 > Width.round a.width) i (Data.start f a (signBit T bits)).pad0 (Width.round a.width) =
      (specialLayout f ⟨a.fill, a.align, Width.round a.width⟩).columns := by
    intro i
    have h0 : (Data.start f a (signBit T bits)).pad0 = f.pad0 := rfl
    have h1 : (specialLayout f ⟨a.fill, a.align, Width.round a.width⟩).columns = max f.pad0 (Width.round a.width) := rfl
    split_ifs <;> omega
  rw [hif, hdd]
  have hsg : SignOk f.sign (signBit T bits) d := by subst hdd; exact ⟨hs.sg.char, hs.sg.shown⟩
  have hsub : d.sub = leaderColumns f.sign (signBit T bits) + 3 := by subst hdd; have := hs.sub; dsimp only at this ⊢; rw [this]
  have hcol := hsg.columns
  have hll := leaderColumns_le f.sign (signBit T bits)
  have hcc : (3 + b2i (Data.start f a (signBit T bits)).showsign : Int) = ((leaderColumns f.sign (signBit T bits) + 3 : Nat) : Int) := by
    have : b2i (Data.start f a (signBit T bits)).showsign = b2i d.showsign := by subst hdd; rfl
    rw [this, ← hcol]; push_cast; omega
  have hfl : d.fill = a.fill := by subst hdd; rfl
  have hsep : d.sep = 0 := by subst hdd; rfl
  have hpt : d.showpoint = false := by subst hdd; rfl
  have hform : d.form = if manBits T bits = 0 then Form.inf else .nan := by subst hdd; rfl
  rw [hcc]
  generalize signBit T bits = neg at *
  unfold specialText specialWidth
  have hfill' : (specialLayout f ⟨a.fill, a.align, Width.round a.width⟩).fill = a.fill := rfl
  have hal : (specialLayout f ⟨a.fill, a.align, Width.round a.width⟩).align = a.align := rfl
  generalize specialLayout f ⟨a.fill, a.align, Width.round a.width⟩ = lay at *
  obtain ⟨d', r, e, hF⟩ := fill_ok L HC f.sign neg lay.columns a.align (leaderColumns f.sign neg + 3) d hsg (by omega) (by omega) (by omega)
  refine ⟨d', r, e, by rw [hF.same.sep, hsep], by rw [hF.same.showpoint, hpt], ?_, ?_, ?_⟩
  · rw [hF.width]; unfold arrangedWidth; simp only [List.length_nil]; push_cast; omega
  · intro lc
    rw [hF.same.fill, hF.size]
    unfold arranged
    dsimp only
    rw [List.length_nil, Nat.add_zero, show ((0 : Int) - (leaderColumns f.sign neg + 3 : Nat)).toNat = 0 by omega, Nat.add_zero]
    simp only [List.length_append, times_length, List.length_replicate, List.length_nil, special_length]
    rw [hfl, hfill']
    have hb : before lay.align (lay.columns - ((leaderColumns f.sign neg + 3 : Nat) : Int)).toNat ≤ (lay.columns - ((leaderColumns f.sign neg + 3 : Nat) : Int)).toNat := by
      cases lay.align <;> simp only [before] <;> omega
    generalize hN : (lay.columns - ((leaderColumns f.sign neg + 3 : Nat) : Int)).toNat = n at hb ⊢
    have : n * (C.encodeChar a.fill).length =
        before lay.align n * (C.encodeChar a.fill).length + (n - before lay.align n) * (C.encodeChar a.fill).length := by
      rw [← Nat.add_mul]; congr 1; omega
    rw [this]
    push_cast
    omega
  · intro p unitBits hp
    subst hp
    have hn : (if p.data.form = .nan then nanChars p.lc else infChars p.lc) = special p.lc (decide (manBits T bits ≠ 0)) := by
      rw [hF.same.form, hform, special_chars]
      by_cases h : manBits T bits = 0 <;> simp [h]
    have := Prints.comp hF.lead.any (Prints.comp (L.prints_raw (τ := τ) 3 (special p.lc (decide (manBits T bits ≠ 0))) (by rw [special_length]) (by omega))
      (printFill_ok HC p.data.right p.data.fill))
    rw [hF.right, hF.same.fill, hfl] at this
    unfold arranged
    dsimp only
    rw [List.length_nil, Nat.add_zero, show ((0 : Int) - (leaderColumns f.sign neg + 3 : Nat)).toNat = 0 by omega, Nat.add_zero, hfill', hal]
    simp only [List.append_assoc, List.replicate_zero, List.nil_append] at this ⊢
    refine prints_congr this fun s => ?_
    unfold Printer.print printInfOrNan
    have hfm : p.data.form = .inf ∨ p.data.form = .nan := by rw [hF.same.form, hform]; split_ifs <;> simp
    rw [← hn, hF.same.fill, hfl]
    rcases hfm with h | h <;> rw [h] <;> simp only [Option.bind_assoc]

theorem plain_special (L : Lawful D Rep) (HC : C.Lawful D Rep) (toDec : ToDecimal) (T : FloatT) (bits : Nat) (hfin : ¬ Finite T bits)
    (lc : Lettercase) (f : FloatFmt) (a : AlignFmt) (lay : Layout) (hl : LayoutOf a lay) (unitBits : Nat) :
    ∃ p pre, Printer.makePlain C toDec lc T bits f a = some (p, pre) ∧
      Prints τ D Rep (p.print D C unitBits) (specialText C.encodeChar lc f lay (signBit T bits) (decide (manBits T bits ≠ 0))) ∧
      pre.width = specialWidth f lay (signBit T bits) ∧
      pre.size = (specialText C.encodeChar lc f lay (signBit T bits) (decide (manBits T bits ≠ 0))).length := by
  obtain ⟨d, r, e, h1, h2, h3, h4, h5⟩ := special_fill L HC toDec T bits hfin emptyWord f a lay hl
  unfold Printer.makePlain
  rw [e]
  refine ⟨_, _, rfl, h5 _ unitBits rfl, h3, ?_⟩
  have := h4 lc
  dsimp only
  omega

theorem punct_special (L : Lawful D Rep) (HC : C.Lawful D Rep) (toDec : ToDecimal) (T : FloatT) (bits : Nat) (hfin : ¬ Finite T bits)
    (lc : Lettercase) (np10 np16 : Numpunct.Facet) (f : FloatFmt) (a : AlignFmt) (lay : Layout) (hl : LayoutOf a lay) (unitBits : Nat) :
    ∃ p pre, Printer.makePunct C toDec lc np10 np16 T bits f a = some (p, pre) ∧
      Prints τ D Rep (p.print D C unitBits) (specialText C.encodeChar lc f lay (signBit T bits) (decide (manBits T bits ≠ 0))) ∧
      pre.width = specialWidth f lay (signBit T bits) ∧
      pre.size = (specialText C.encodeChar lc f lay (signBit T bits) (decide (manBits T bits ≠ 0))).length := by
  unfold Printer.makePunct
  dsimp only
  generalize hG : (if f.punctuate = true then validGrouping C (if f.punctuate = true then np10.thousandsSep else 0x2C) np10.grouping else emptyWord) = grp
  obtain ⟨d, r, e, h1, h2, h3, h4, h5⟩ := special_fill L HC toDec T bits hfin grp f a lay hl
  rw [e]
  refine ⟨_, _, rfl, h5 _ unitBits rfl, h3, ?_⟩
  have := h4 lc
  dsimp only
  rw [h1, h2]
  rw [if_neg (by simp), if_neg (by simp)]
  omega

end Strf.Float

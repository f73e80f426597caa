import Verif.Float.InitGen
/-
Lemmas: from the data to the text, and the constructors.
-/
namespace Strf.Float
open Strf.Float.Spec hiding Notation
open Strf.IntDigits Strf.IntDigits.Spec Strf.Numpunct Strf.Numpunct.Spec Strf.Print
open Strf.IntPrinter (b2n b2i AlignFmt signChar printFill printFill_ok LayoutOf)
open Strf.IntPrinter.Spec (Showsign Align Layout before times)
open Strf.Dest (Dest Lawful Prints)

variable {σ : Type} {D : Dest Nat σ} {Rep : σ → List Nat → Prop} {C : Charset σ}

theorem FixedOk.same {gs : List Nat} {rep alt : Bool} {sh : Shape} {d d' : Data} (h : FixedOk gs rep alt sh d) (s : Same d d') :
    FixedOk gs rep alt sh d' :=
  ⟨by rw [s.form, h.form], h.exp, by rw [s.m]; exact h.lt, by rw [s.m, s.digcount, h.digcount], by rw [s.m, s.e]; exact h.zero,
    by rw [s.extra]; exact h.extra, by rw [s.m, s.e, s.extra]; exact h.digits, by rw [s.e, s.extra]; exact h.frac,
    by rw [s.showpoint]; exact h.point, by rw [s.sep]; exact h.sep⟩

theorem SciOk.same {alt : Bool} {sh : Shape} {d d' : Data} (h : SciOk alt sh d) (s : Same d d') : SciOk alt sh d' :=
  ⟨by rw [s.form, h.form], by rw [s.e, s.digcount]; exact h.exp, by rw [s.e, s.digcount]; exact h.small, by rw [s.m]; exact h.lt,
    by rw [s.m, s.digcount, h.digcount], by rw [s.extra]; exact h.extra, by rw [s.m, s.extra]; exact h.digits,
    by rw [s.m, s.extra]; exact h.frac, by rw [s.showpoint]; exact h.point, by rw [s.sep]; exact h.sep⟩

/-- the length of the number, when the separator and the point have several code units -/
theorem number_length {gs : List Nat} {rep alt : Bool} {sh : Shape} {d : Data} (h : FixedOk gs rep alt sh d ∨ SciOk alt sh d)
    (lc : Lettercase) (point sep : List Nat) :
    ((number lc point sep gs rep alt sh).length : Int) = columns gs rep alt sh + d.sep * ((sep.length : Int) - 1) +
      (if d.showpoint then (point.length : Int) - 1 else 0) := by
  unfold columns number
  rcases h with h | h
  · rw [h.exp]
    dsimp only
    rw [body_length, body_length, h.sep]
    have : (alt = true ∨ 0 < sh.frac) ↔ d.showpoint = true := by rw [h.point]; simp
    simp only [this]
    generalize (split gs rep (numeral 10 (sh.digits / 10 ^ sh.frac)).length).length - 1 = n
    split_ifs <;> push_cast <;> simp <;> ring
  · rw [h.exp]
    dsimp only
    rw [List.length_append, List.length_append, body_length, body_length, h.sep]
    have : (alt = true ∨ 0 < sh.frac) ↔ d.showpoint = true := by rw [h.point]; simp
    simp only [this]
    have e : (expText lc (d.e + d.digcount - 1)).length = (expText .lower (d.e + d.digcount - 1)).length := by
      unfold expText; simp
    rw [e]
    split_ifs <;> push_cast <;> simp <;> ring

/-- if the columns counted are `cols` -/
theorem counted_fill (L : Lawful D Rep) (HC : C.Lawful D Rep) {gs : List Nat} {rep alt : Bool} (hg : Valid gs rep)
    {sh : Shape} {sign : Showsign} {neg : Bool} {pad0 : Int} (hpad : pad0 ≤ 2147483647) (lay : Layout) {d : Data} {cols : Nat}
    (hdok : FixedOk gs rep alt sh d ∨ SciOk alt sh d) (hsg : SignOk sign neg d) (hfill : d.fill = lay.fill) (hp0 : d.pad0 = pad0)
    (hsub : d.sub = (leaderColumns sign neg + cols : Nat)) (hb : d.sub ≤ 2147483647) :
    ∃ d' r, initFill d lay.columns (max d.sub d.pad0) lay.align = some (d', r) ∧ Same d d' ∧
      r.fillcount + r.content = arrangedWidth sign pad0 lay neg [] cols ∧
      (∀ txt : List Nat, r.content + fillSize C d'.fill r.fillcount + txt.length =
        (arranged C.encodeChar sign pad0 lay neg [] txt cols).length + cols) ∧
      ∀ (p : Printer) (unitBits : Nat) (st : List Nat), p.data = d' → p.grouping = ctor2 (args gs rep) → SepOk C unitBits p st →
        (p.pointSize = if p.data.showpoint then C.charSize p.point else 0) →
        Prints τ D Rep (p.print D C unitBits) (arranged C.encodeChar sign pad0 lay neg []
          (number p.lc (C.encodeChar p.point) st gs rep alt sh) cols) := by
  obtain ⟨content, hcont⟩ : ∃ n : Nat, (n : Int) = max d.sub d.pad0 := ⟨(max d.sub d.pad0).toNat, by omega⟩
  rw [← hcont]
  obtain ⟨d', r, e, hf⟩ := fill_ok L HC sign neg lay.columns lay.align content d hsg (by omega) (by omega) (by omega)
  have hpre := fun txt => filled_pre HC hf hfill txt _ hsub hcont
  rw [hp0] at hpre
  refine ⟨d', r, e, hf.same, (hpre []).1, fun txt => (hpre txt).2, ?_⟩
  intro p unitBits st hpd hgr hs hps
  subst hpd
  have hok : FixedOk gs rep alt sh p.data ∨ SciOk alt sh p.data := by
    rcases hdok with h | h
    · exact .inl (h.same hf.same)
    · exact .inr (h.same hf.same)
  rcases hok with hok | hok
  · have := filled_prints (τ := τ) HC L hf hfill _ _ _ (fixed_prints (τ := τ) L HC p gs rep alt sh hok hg hgr unitBits hs hps p.lc) hsub hcont
    rw [hp0] at this
    refine prints_congr this fun s => ?_
    unfold Printer.print
    simp only [hok.form, printFixed_eq]
  · have := filled_prints (τ := τ) HC L hf hfill _ _ _ (sci_prints (τ := τ) L HC p gs rep alt sh st hok hps) hsub hcont
    rw [hp0] at this
    refine prints_congr this fun s => ?_
    unfold Printer.print
    simp only [hok.form, printScientific_eq]

theorem good_fill (L : Lawful D Rep) (HC : C.Lawful D Rep) {gs : List Nat} {rep alt : Bool} (hg : Valid gs rep)
    {sh : Shape} {sign : Showsign} {neg : Bool} {pad0 : Int} (hpad : pad0 ≤ 2147483647) (lay : Layout) {d : Data}
    (h : Good gs rep alt sh sign neg lay.fill pad0 d) :
    ∃ d' r, initFill d lay.columns (max d.sub d.pad0) lay.align = some (d', r) ∧ Same d d' ∧
      r.fillcount + r.content = arrangedWidth sign pad0 lay neg [] (columns gs rep alt sh) ∧
      (∀ txt : List Nat, r.content + fillSize C d'.fill r.fillcount + txt.length =
        (arranged C.encodeChar sign pad0 lay neg [] txt (columns gs rep alt sh)).length + columns gs rep alt sh) ∧
      ∀ (p : Printer) (unitBits : Nat) (st : List Nat), p.data = d' → p.grouping = ctor2 (args gs rep) → SepOk C unitBits p st →
        (p.pointSize = if p.data.showpoint then C.charSize p.point else 0) →
        Prints τ D Rep (p.print D C unitBits) (arranged C.encodeChar sign pad0 lay neg []
          (number p.lc (C.encodeChar p.point) st gs rep alt sh) (columns gs rep alt sh)) :=
  counted_fill L HC hg hpad lay h.ok h.sg h.fill h.pad0 (by rw [h.sub]; push_cast; rfl) h.bound

end Strf.Float

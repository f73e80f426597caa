import Verif.Format.StringProps
/-!
# C69: the strings whose width is calculated in another charset

A string whose charset was given, and is that of the destination of another character type, is copied, and its width is calculated in the
charset of the facets for its character type (`WidthCharsetOk` fails). Everything else about it is as asked: what is printed of it in each
case, and exactly when that is right.
-/
namespace Strf.Format
open Strf.IntPrinter (AlignFmt)
open Strf.Print (Item Cs Calc Policy Comparison How choose stringItem Charset Meaning Pre FillCount padded ssizeMax preciseMeaning)
open Strf.Dest (Dest Lawful Prints)
open Strf.Width (wmax)

variable {σ : Type} {D : Dest Nat σ} {Rep : σ → List Nat → Prop}

/-- C69: what is printed when the width is not calculated in the charset given (otherwise: `string_chain_exact_partial`): what is kept of
the string, as it is, with as many fill characters as are missing to the width of the alignment if the columns of the string were those in
the charset of the facet for its character type, `(F.charset S).name`; these are also the columns reported, and those that decide what the
precision keeps.
Missing: precision with std_width_calc. -/
theorem string_chain_copied_partial (L : Lawful D Rep) (B : Int) (F : StringFacets) (S T : CharT)
    (hF : ∀ U, (F.charset U).name.unitSize = U.size) (signed : Bool) (cs : List StringCall) (src : List Nat) (hu : S.Units src)
    (hcalc : F.widthCalc = .fastU32len → (F.charset S).name.cs.WellFormed src)
    (hstd : F.widthCalc = .std → precisionOf cs = none)
    (hp : ∀ p, precisionOf cs = some p → p ≤ wmax) (ha : CInt.InI32 (stringAlign cs).width)
    (hwc : ¬WidthCharsetOk F S T cs) (it : Item σ) (hit : (stringChain cs).item D F S T signed src = some it) :
    ∃ x, KeptOf F.widthCalc (F.charset S).name.cs (precisionOf cs) src x ∧
      (x.length < ssizeMax →
      ∀ n, FillCount (stringAlign cs).width (F.widthCalc.columns (F.charset S).name.cs x * 65536) n →
      it.Means τ D Rep B (stringMeaning ((F.charset T).name.charset D).encodeChar (stringAlign cs) (precisionOf cs).isSome n x
        (F.widthCalc.columns (F.charset S).name.cs x * 65536))) := by
  have hv := string_chain_state cs
  generalize hvv : stringChain cs = v at *
  unfold StringVal.item at hit
  split_ifs at hit with hcomp
  simp only [Option.some.injEq] at hit
  obtain ⟨hhow, hname, -⟩ := copied_elsewhere S T F cs v hv hcomp hwc
  simp only [hhow, StringVal.widthCharset] at hit
  have hU : (F.charset S).name.cs.Units src := cs_units (hF S) hu
  have hc : F.widthCalc.Ok (F.charset S).name.cs src := ⟨hU, hcalc⟩
  obtain ⟨x, -, h1, h2⟩ := stringItem_means (τ := τ) (D := D) (Rep := Rep) L ((F.charset T).name.charset D) (charset_lawful L _) F.widthCalc .copyOther
    signed false (F.charset S).name.cs (F.charset T).name.cs (by intro h; cases h) B v.align (by rw [hv.align]; exact ha)
    v.precision (by intro p e; rw [hv.precision] at e; exact ⟨hp p e, fun g => by rw [hstd g] at e; cases e⟩) src hc
  rw [hv.precision] at h1
  refine ⟨x, h1, fun hlen n hn => ?_⟩
  have h3 := h2 trivial hlen n (by rw [hv.align]; exact hn)
  rw [hv.align] at h3
  rw [← hit, ← hv.precision]
  exact h3

theorem times_length {enc : Nat → List Nat} (n ch : Nat) : (IntPrinter.Spec.times enc n ch).length = n * (enc ch).length := by
  unfold IntPrinter.Spec.times
  induction n with
  | zero => simp
  | succ n ih => rw [List.replicate_succ, List.flatten_cons, List.length_append, ih]; ring

theorem padded_length (enc : Nat → List Nat) (a : AlignFmt) (n : Nat) (text : List Nat) :
    (padded enc a n text).length = text.length + n * (enc a.fill).length := by
  unfold padded
  have hle : IntPrinter.Spec.before a.align n ≤ n := by unfold IntPrinter.Spec.before; cases a.align <;> simp <;> omega
  simp only [List.length_append, times_length]
  generalize IntPrinter.Spec.before a.align n = m at hle
  obtain ⟨k, rfl⟩ := Nat.exists_eq_add_of_le hle
  rw [Nat.add_sub_cancel_left]; ring

/-- C69: What is printed of a string copied that way is right exactly if the number of fill characters is: with the columns in the charset
given as with those in the other one. -/
theorem copied_text_iff (C : Charset σ) (hC : C.Lawful D Rep) (a : AlignFmt) (b b' : Bool) (x : List Nat) (w w' : Int) (n n' : Nat) :
    (stringMeaning C.encodeChar a b n x w).text = (stringMeaning C.encodeChar a b' n' x w').text ↔ n = n' := by
  constructor
  · intro h
    have h := congrArg List.length h
    simp only [stringMeaning, padded_length] at h
    have := (hC.short a.fill).1
    exact Nat.eq_of_mul_eq_mul_right this (by omega)
  · rintro rfl; rfl

/-- C69: What is printed of a string copied that way and the width reported are right, both, exactly if the string has as many columns in the
charset given as in the other one: in some alignment it is not if it has not. -/
theorem charset_width_iff (C : Charset σ) (hC : C.Lawful D Rep) (a : AlignFmt) (b b' : Bool) (x : List Nat) (w w' : Int) (n n' : Nat)
    (hn : FillCount a.width (w * 65536) n) (hn' : FillCount a.width (w' * 65536) n') :
    ((stringMeaning C.encodeChar a b n x (w * 65536)).text = (stringMeaning C.encodeChar a b' n' x (w' * 65536)).text ∧
      (stringMeaning C.encodeChar a b n x (w * 65536)).width = (stringMeaning C.encodeChar a b' n' x (w' * 65536)).width) ↔ w = w' := by
  rw [copied_text_iff C hC]
  constructor
  · rintro ⟨rfl, h⟩
    simp only [stringMeaning] at h
    omega
  · rintro rfl
    have hu := Print.fillCount_unique hn
    have hu' := Print.fillCount_unique hn'
    have e : n = n' := by
      by_cases h : w * 65536 < a.width
      · have h2 : WidthSpec.IsRound (a.width - w * 65536) n' := by
          unfold FillCount at hn'; rw [if_pos h] at hn'; exact hn'
        exact (Int.ofNat.inj (hu.1 h n' h2)).symm
      · rw [hu.2 (by omega), hu'.2 (by omega)]
    exact ⟨e, by subst e; rfl⟩

/-- the case of `charset_width_wrong` -/
example : ¬WidthCharsetOk someFacets .char .char8 [.transcode (some ⟨.utf .utf8, true⟩), .align (.right 196608)] ∧
    ((stringChain [.transcode (some ⟨.utf .utf8, true⟩), .align (.right 196608)]).item Dest.Maker.dest someFacets .char .char8 false
      [0xC3, 0xA9]).isSome ∧ CharT.char.Units [0xC3, 0xA9] ∧
    someFacets.widthCalc.columns (someFacets.charset .char).name.cs [0xC3, 0xA9] = 2 ∧ FillCount 196608 (2 * 65536) 1 := by
  refine ⟨by unfold WidthCharsetOk; decide, by decide, by decide, by decide +kernel, by decide +kernel⟩

/-- and one where the columns are the same: `"ab"` -/
example : someFacets.widthCalc.columns (someFacets.charset .char).name.cs [0x61, 0x62] =
    someFacets.widthCalc.columns (CsName.utf .utf8).cs [0x61, 0x62] ∧
    stringPrinted someFacets .char .char8 [.transcode (some ⟨.utf .utf8, true⟩), .align (.right 196608)] [0x61, 0x62] =
      some [0x20, 0x61, 0x62] := by
  constructor <;> decide +kernel

end Strf.Format

import Verif.Float.Props
/-!
# C57, where exactly the separators of a floating-point number are wrong

In single-byte charsets the printer casts the code point of the separator to `char` in one of its branches.
-/
namespace Strf.Float
open Strf.Float.Spec hiding Notation
open Strf.IntDigits Strf.IntDigits.Spec Strf.Numpunct Strf.Numpunct.Spec Strf.Print
open Strf.IntPrinter (b2n b2i AlignFmt LayoutOf)
open Strf.IntPrinter.Spec (Showsign Align Layout before times)
open Strf.Dest (Dest Lawful Prints)
open Strf.Dragonbox (toDecimal)

variable {σ : Type} {D : Dest Nat σ} {Rep : σ → List Nat → Prop} {C : Charset σ}

theorem grouped_inj {a b : Nat} {sizes : List Nat} (h : 1 < sizes.length) (ds : List Nat)
    (e : grouped [a] sizes ds = grouped [b] sizes ds) : a = b := by
  match sizes, h with
  | n :: k :: ns, _ =>
    unfold grouped at e
    rw [chop, intercalate_cons _ _ _ (by simp [chop]), intercalate_cons _ _ _ (by simp [chop]), List.append_assoc, List.append_assoc] at e
    have := List.append_cancel_left e
    simp only [List.singleton_append, List.cons.injEq] at this
    exact this.1

theorem arranged_inj {enc : Nat → List Nat} {sign : Showsign} {pad0 : Int} {lay : Layout} {neg : Bool} {base t1 t2 : List Nat}
    {cols : Nat} : arranged enc sign pad0 lay neg base t1 cols = arranged enc sign pad0 lay neg base t2 cols ↔ t1 = t2 := by
  constructor
  · intro h
    unfold arranged at h
    dsimp only at h
    exact List.append_cancel_left (List.append_cancel_right h)
  · rintro rfl; rfl

theorem arranged_length {enc : Nat → List Nat} {sign : Showsign} {pad0 : Int} {lay : Layout} {neg : Bool} {base t1 t2 : List Nat}
    {cols : Nat} (h : t1.length = t2.length) :
    (arranged enc sign pad0 lay neg base t1 cols).length = (arranged enc sign pad0 lay neg base t2 cols).length := by
  unfold arranged
  simp only [List.length_append, h]

theorem number_length_congr {lc : Lettercase} {point s1 s2 gs : List Nat} {rep alt : Bool} {sh : Shape} (h : s1.length = s2.length) :
    (number lc point s1 gs rep alt sh).length = (number lc point s2 gs rep alt sh).length := by
  unfold number
  cases sh.exp with
  | none => simp only [body_length, h]
  | some x => rfl

/-- The number is written without exponent, it is an integer (its decimal exponent is not negative), it has separators, and
the code unit of the separator is not the low bits of its code point. -/
def SepWrong (C : Charset σ) (unitBits : Nat) (np : Numpunct.Facet) (f : FloatFmt) (gs : List Nat) (rep : Bool) (m : Nat) (e : Int) : Prop :=
  (shape (usedGroups C np f gs rep).1 (usedGroups C np f gs rep).2 (specNotation f.nota) none f.showpoint m e).exp = none ∧
  0 ≤ e ∧
  1 < (split (usedGroups C np f gs rep).1 (usedGroups C np f gs rep).2 (numeral 10 (m * 10 ^ e.toNat)).length).length ∧
  (C.encodeChar (usedSep np f)).length = 1 ∧ C.encodeChar (usedSep np f) ≠ [usedSep np f % 2 ^ unitBits]

theorem exact_exp {gs : List Nat} {rep : Bool} {n : Spec.Notation} {alt : Bool} {m : Nat} {e : Int}
    (h : (shape gs rep n none alt m e).exp = none) : shape gs rep n none alt m e = exactFixed m e := by
  cases n
  · rfl
  · simp [shape, exactSci] at h
  · simp only [shape] at h ⊢
    split_ifs at h ⊢
    · simp [exactSci] at h
    · rfl

/-- C57, exactly, for every facet and charset: with no precision, a number is printed with a width and a size that are right,
and its text is right if and only if it is not `SepWrong`. -/
theorem no_precision_punct_iff (L : Lawful D Rep) (HC : C.Lawful D Rep) (T : FloatT) (bits : Nat) (hfin : Finite T bits)
    (lc : Lettercase) (np10 np16 : Numpunct.Facet)
    {gs : List Nat} {rep : Bool} (hg : Valid gs rep) (hgr : np10.grouping = ctor2 (args gs rep))
    (f : FloatFmt) (hprec : f.precision = -1) (hpad : f.pad0 ≤ 2147483647) (hhex : f.nota ≠ .hex) (a : AlignFmt) (lay : Layout)
    (hl : LayoutOf a lay) (unitBits : Nat) :
    ∃ p pre text, Printer.makePunct C toDecimal lc np10 np16 T bits f a = some (p, pre) ∧
      Prints τ D Rep (p.print D C unitBits) text ∧
      (text = finite C.encodeChar lc (usedPoint np10 f) (usedSep np10 f)
        (usedGroups C np10 f gs rep).1 (usedGroups C np10 f gs rep).2 f lay (signBit T bits)
        (decode toDecimal T bits).m10 (decode toDecimal T bits).e10 ↔
        ¬ SepWrong C unitBits np10 f gs rep (decode toDecimal T bits).m10 (decode toDecimal T bits).e10) ∧
      pre.width = finiteWidth (usedGroups C np10 f gs rep).1 (usedGroups C np10 f gs rep).2 f lay (signBit T bits)
        (decode toDecimal T bits).m10 (decode toDecimal T bits).e10 ∧
      pre.size = text.length := by
  have hdec := decode_good hfin
  have hp : precision f.precision = none := by rw [hprec]; rfl
  obtain ⟨p, pre, h1, h2, h3, h4⟩ := punct_finite_sep (τ := τ) L HC toDecimal T bits hfin hdec lc np10 np16 hg hgr f ⟨.inl hprec, hpad⟩ hhex a
    lay hl unitBits
    (if 0 ≤ (decode toDecimal T bits).e10 ∧ (C.encodeChar (usedSep np10 f)).length = 1 then [usedSep np10 f % 2 ^ unitBits]
      else C.encodeChar (usedSep np10 f)) (by
      intro _ d hd
      rw [hp] at hd
      have hsh := exact_exp hd.exp
      have hdig := hd.digits
      have hfr := hd.frac
      rw [hsh] at hdig hfr
      simp only [exactFixed] at hdig hfr
      have key : 0 ≤ d.e ↔ 0 ≤ (decode toDecimal T bits).e10 := by
        constructor
        · intro he
          by_contra hneg
          have hx : d.extra.toNat = (-(decode toDecimal T bits).e10).toNat := by omega
          obtain ⟨k, hk⟩ : ∃ k, d.extra.toNat = k + 1 := ⟨d.extra.toNat - 1, by omega⟩
          rw [show (decode toDecimal T bits).e10.toNat = 0 by omega, hk, Nat.pow_zero, Nat.mul_one, Nat.pow_succ, ← Nat.mul_assoc] at hdig
          by_cases hm : (decode toDecimal T bits).m10 = 0
          · have := hdec.zero hm; omega
          · have := hdec.last hm
            rw [hdig] at this
            omega
        · intro he
          omega
      constructor
      · intro ge gl; rw [if_pos ⟨key.mp ge, gl⟩]
      · intro gn; rw [if_neg (fun g => gn ⟨key.mpr g.1, g.2⟩)])
    (by rw [hprec]; exact no_precision_carry _ _ _ _ _ _ _ _)
  rw [hp] at h2
  generalize hm : (decode toDecimal T bits).m10 = m at *
  generalize he : (decode toDecimal T bits).e10 = e at *
  generalize hG : (usedGroups C np10 f gs rep).1 = gs' at *
  generalize hR : (usedGroups C np10 f gs rep).2 = rep' at *
  refine ⟨p, pre, _, h1, h2, ?_, h3, ?_⟩
  · unfold finite
    dsimp only
    rw [hp, arranged_inj]
    unfold SepWrong
    rw [hG, hR]
    by_cases hc : 0 ≤ e ∧ (C.encodeChar (usedSep np10 f)).length = 1
    · rw [if_pos hc]
      cases hx : (shape gs' rep' (specNotation f.nota) none f.showpoint m e).exp with
      | some x =>
        unfold number
        rw [hx]
        simp
      | none =>
        rw [exact_exp hx]
        have hz : (-e).toNat = 0 := by omega
        simp only [number, exactFixed, hz, body_eq, Nat.pow_zero, Nat.div_one]
        constructor
        · rintro g ⟨_, _, g3, g4, g5⟩
          obtain ⟨u, hu⟩ := List.length_eq_one_iff.mp g4
          rw [hu] at g g5
          have := List.append_cancel_right (List.append_cancel_right g)
          have := grouped_inj (by rw [List.length_reverse]; exact g3) _ this
          exact g5 (by rw [this])
        · intro g
          by_cases g5 : C.encodeChar (usedSep np10 f) = [usedSep np10 f % 2 ^ unitBits]
          · rw [g5]
          · have : ¬ 1 < (split gs' rep' (numeral 10 (m * 10 ^ e.toNat)).length).length := fun g3 => g ⟨trivial, hc.1, g3, hc.2, g5⟩
            rw [grouped_plain gs' _ rep' _ _ (by rw [text_length]) (by omega), grouped_plain gs' _ rep' _ _ (by rw [text_length]) (by omega)]
    · rw [if_neg hc]
      simp only [true_iff]
      rintro ⟨_, g2, _, g4, _⟩
      exact hc ⟨g2, g4⟩
  · rw [h4]
    unfold finite
    dsimp only
    rw [hp]
    refine arranged_length (number_length_congr ?_)
    split_ifs with hc
    · rw [hc.2]; rfl
    · rfl

/-- U+0401 in ISO-8859-5: 1234 is wrong (`sbc_separator_wrong`), 1234.5 and 123 are not. -/
example : SepWrong (sbc Dest.Maker.dest Sbc.iso_8859_5) 8 (threes 0x401) ⟨-1, 0, .fixed, .negativeOnly, false, true⟩ [3] true 1234 0 ∧
    ¬ SepWrong (sbc Dest.Maker.dest Sbc.iso_8859_5) 8 (threes 0x401) ⟨-1, 0, .fixed, .negativeOnly, false, true⟩ [3] true 12345 (-1) ∧
    ¬ SepWrong (sbc Dest.Maker.dest Sbc.iso_8859_5) 8 (threes 0x401) ⟨-1, 0, .fixed, .negativeOnly, false, true⟩ [3] true 123 0 ∧
    ¬ SepWrong (sbc Dest.Maker.dest Sbc.iso_8859_5) 8 (threes 0x27) ⟨-1, 0, .fixed, .negativeOnly, false, true⟩ [3] true 1234 0 := by
  unfold SepWrong; decide +kernel

end Strf.Float

import Verif.Format.FloatProps
import Verif.Float.PrecisionIff
/-!
# C68, C73: the letter case of a floating-point number, for every chain

`float_chain_all` says with which letter case any chain prints; `fast_letters_iff` when that makes a difference.
-/
namespace Strf.Format
open Strf.IntPrinter.Spec Strf.IntDigits.Spec
open Strf.IntPrinter (AlignFmt LayoutOf)
open Strf.Float hiding Notation
open Strf.Float.Spec (Shape shape number expText special body)
open Strf.Print (Item fixed Charset)
open Strf.Dest (Dest Lawful Prints)
open Strf.Numpunct.Spec
open Strf.Dragonbox (toDecimal)

variable {σ : Type} {D : Dest Nat σ} {Rep : σ → List Nat → Prop} {C : Charset σ}

/-- no options are in force: since the format was last cleared nothing was asked for but the general notation, and no alignment since
that was last cleared -/
def Bare (cs : List FloatCall) : Prop :=
  (∀ c ∈ cs.reverse.takeWhile (· ≠ .clear), c = .gen ∨ c.align? ≠ none) ∧
  ((floatAlignCalls cs).getLast? = none ∨ (floatAlignCalls cs).getLast? = some .clear)

/-- the format is the default one -/
theorem bare_spec (cs : List FloatCall) : (floatChain cs).spec = .dflt ↔ ∀ c ∈ cs.reverse.takeWhile (· ≠ .clear), c = .gen ∨ c.align? ≠ none := by
  induction cs using List.reverseRecOn with
  | nil => simp [floatChain, FloatVal.init]
  | append_singleton cs c ih =>
    have h : floatChain (cs ++ [c]) = (floatChain cs).step c := by simp [floatChain]
    rw [h, List.reverse_append]
    generalize floatChain cs = v at *
    obtain ⟨spec, al⟩ := v
    cases c <;> cases spec <;>
      simp_all [FloatVal.step, FloatSpec.step, fstepDefault, fstepNoPunct, fstepFull, FloatCall.align?, List.takeWhile_cons]

/-- there is no alignment -/
theorem bare_align (cs : List FloatCall) : (floatChain cs).align = none ↔
    ((floatAlignCalls cs).getLast? = none ∨ (floatAlignCalls cs).getLast? = some .clear) := by
  induction cs using List.reverseRecOn with
  | nil => simp [floatChain, FloatVal.init, floatAlignCalls]
  | append_singleton cs c ih =>
    have h : floatChain (cs ++ [c]) = (floatChain cs).step c := by simp [floatChain]
    have ha : floatAlignCalls (cs ++ [c]) = floatAlignCalls cs ++ (c.align?).toList := by
      cases c <;> simp [floatAlignCalls, FloatCall.align?]
    rw [h, ha]
    generalize floatChain cs = v at *
    obtain ⟨spec, al⟩ := v
    cases c with
    | align a => cases a <;> cases al <;> simp [FloatVal.step, alignStep, FloatCall.align?]
    | _ => simpa [FloatVal.step, FloatCall.align?] using ih

theorem bare_iff (cs : List FloatCall) : (floatChain cs).spec = .dflt ∧ (floatChain cs).align = none ↔ Bare cs := by
  rw [bare_spec, bare_align]; rfl

open Classical in
/-- the letter case that is used: that for `float` if no options are in force, otherwise that for the type of the number -/
noncomputable def usedLetters (F : FloatFacets) (T : FloatT) (cs : List FloatCall) : Lettercase := if Bare cs then F.lc .float else F.lc T

/-- C68: every chain, on every number: the options given last are in force, with the letter case `usedLetters`. -/
theorem float_chain_all (L : Lawful D Rep) (HC : C.Lawful D Rep) (B : Int) (unitBits : Nat) (cs : List FloatCall)
    (f : FloatFmt) (hf : f = floatOptions cs)
    (lay : Layout) (hfill : lay.fill = fillOf (floatAlignCalls cs)) (halign : lay.align = alignOf (floatAlignCalls cs))
    (hwid : CInt.InI32 (widthOf (floatAlignCalls cs))) (hcol : WidthSpec.IsRound (widthOf (floatAlignCalls cs)) lay.columns)
    (F : FloatFacets) (gs : List Nat) (rep : Bool) (hg : Valid gs rep) (hgr : F.np10.grouping = Numpunct.ctor2 (args gs rep))
    (hcast : f.punctuate = true → CastOk C unitBits F.np10.thousandsSep)
    (T : FloatT) (bits : Nat)
    (hr : RoundOk (usedGroups C F.np10 f gs rep).1 (usedGroups C F.np10 f gs rep).2 f T bits) :
    ((floatChain cs).item D C unitBits F T bits).Means τ D Rep B
      (.ofColumns (floatText C.encodeChar (usedLetters F T cs) (usedPoint F.np10 f) (usedPoint F.np16 f) (usedSep F.np10 f)
        (usedGroups C F.np10 f gs rep).1 (usedGroups C F.np10 f gs rep).2 f lay T bits)
        (floatWidth (usedGroups C F.np10 f gs rep).1 (usedGroups C F.np10 f gs rep).2 f lay T bits)) := by
  have h := float_chain_exact_partial (τ := τ) L HC B unitBits cs f hf lay hfill halign hwid hcol ⟨fun _ => usedLetters F T cs, F.np10, F.np16⟩ gs rep hg hgr
    hcast T bits (fun _ => rfl) hr
  have e : (floatChain cs).item D C unitBits ⟨fun _ => usedLetters F T cs, F.np10, F.np16⟩ T bits = (floatChain cs).item D C unitBits F T bits := by
    have hb := bare_iff cs
    unfold usedLetters
    generalize floatChain cs = v at hb ⊢
    obtain ⟨spec, al⟩ := v
    by_cases hbare : Bare cs
    · obtain ⟨rfl, rfl⟩ := hb.mpr hbare
      rw [if_pos hbare]
      rfl
    · rw [if_neg hbare]
      cases spec with
      | full g => rfl
      | noPunct g => rfl
      | dflt =>
        cases al with
        | some a => rfl
        | none => exact absurd (hb.mp ⟨rfl, rfl⟩) hbare
  rw [e] at h
  exact h

/-- two letter cases make no difference to a number without options: it has no letters, or (if it is finite) neither or both are upper
case -/
def SameLetters (lc lc' : Lettercase) (T : FloatT) (bits : Nat) : Prop :=
  (Finite T bits →
    (shape [] false .general none false (decode toDecimal T bits).m10 (decode toDecimal T bits).e10).exp = none ∨ (lc = .upper ↔ lc' = .upper)) ∧
  (¬ Finite T bits → lc = lc')

theorem special_injective (lc lc' : Lettercase) (nan : Bool) : special lc nan = special lc' nan ↔ lc = lc' := by
  cases lc <;> cases lc' <;> cases nan <;> decide

theorem number_letters (lc lc' : Lettercase) (point sep gs : List Nat) (rep alt : Bool) (sh : Shape) :
    number lc point sep gs rep alt sh = number lc' point sep gs rep alt sh ↔ sh.exp = none ∨ (lc = .upper ↔ lc' = .upper) := by
  unfold number
  cases sh.exp with
  | none => simp
  | some x =>
    simp only [List.append_cancel_left_eq, reduceCtorEq, false_or]
    unfold expText
    cases lc <;> cases lc' <;> simp

/-- C68: exactly when the defect of `fast_lettercase_wrong` changes the text. -/
theorem fast_letters_iff (enc : Nat → List Nat) (lc lc' : Lettercase) (T : FloatT) (bits : Nat) :
    floatText enc lc 0x2E 0x2E 0x2C [] false FloatFmt.dflt Layout.none T bits =
      floatText enc lc' 0x2E 0x2E 0x2C [] false FloatFmt.dflt Layout.none T bits ↔ SameLetters lc lc' T bits := by
  unfold floatText SameLetters Float.Finite
  by_cases h : expBits T bits = 2 ^ T.eSize - 1
  · rw [if_pos h, if_pos h]
    unfold specialText
    rw [arranged_bare _ _ _ _ _ (by decide) (by decide), arranged_bare _ _ _ _ _ (by decide) (by decide), List.append_cancel_left_eq,
      special_injective]
    exact ⟨fun e => ⟨fun h' => absurd h h', fun _ => e⟩, fun e => e.2 (fun h' => h' h)⟩
  · rw [if_neg h, if_neg h, if_neg (by decide), if_neg (by decide)]
    unfold finite
    dsimp only
    rw [arranged_bare _ _ _ _ _ (by decide) (by decide), arranged_bare _ _ _ _ _ (by decide) (by decide), List.append_cancel_left_eq,
      number_letters]
    exact ⟨fun e => ⟨fun _ => e, fun h' => absurd h h'⟩, fun e => e.1 h⟩

/-- `fmt(x)`, `gen(x)`, and `right(sci(x), 5)` when both formats are cleared are bare; `x > 1` is not -/
example : Bare [] ∧ Bare [.gen] ∧ Bare [.sci, .align (.right 327680), .clear, .align .clear] ∧ ¬ Bare [.align (.right 65536)] := by
  unfold Bare; decide

/-- 1e100 has a letter, 1.5 has none, infinity differs in all three cases -/
example : ¬ SameLetters .lower .upper .double 0x54B249AD2594C37D ∧ SameLetters .lower .mixed .double 0x54B249AD2594C37D ∧
    SameLetters .lower .upper .double 0x3FF8000000000000 ∧ ¬ SameLetters .lower .mixed .double 0x7FF0000000000000 := by
  unfold SameLetters Float.Finite; decide +kernel

end Strf.Format

import Verif.Format.CharProps
/-!
# C70: formatted characters of any type

`char_chain_cast`: a character of any type, formatted, is cast to the character type of the destination. `cast_ascii`, `ascii_text`: for an
ASCII character that is its code unit, and what a conversion between the charsets would give.
-/
namespace Strf.Format
open Strf.IntPrinter.Spec Strf.IntDigits.Spec
open Strf.IntPrinter (AlignFmt)
open Strf.Print (Item Charset Meaning Cs padded FillCount)
open Strf.Dest (Dest Lawful Prints)
open Strf.Width (wmax wmin)

variable {σ : Type} {D : Dest Nat σ} {Rep : σ → List Nat → Prop}

theorem castUnit_units (signed : Bool) (S T : CharT) (u : Nat) : T.Units [castUnit signed S T u] := by
  intro v hv
  rw [List.mem_singleton] at hv
  subst hv
  unfold castUnit
  have hpos : (0 : Int) < 2 ^ (8 * T.size) := by positivity
  have h1 := Int.emod_lt_of_pos (if signed = true ∧ u ≥ 2 ^ (8 * S.size - 1) then (u : Int) - 2 ^ (8 * S.size) else u) hpos
  have h2 := Int.emod_nonneg (if signed = true ∧ u ≥ 2 ^ (8 * S.size - 1) then (u : Int) - 2 ^ (8 * S.size) else u) (ne_of_gt hpos)
  have h3 : ((2 ^ (8 * T.size) : Nat) : Int) = 2 ^ (8 * T.size) := by push_cast; rfl
  omega

/-- C70: a character of any type with format functions, in any order and number, unless it is a `char32_t` that is encoded: what is
printed, as often as the last `multi` says, with the fill that is missing, is its value cast to the character type of the destination. -/
theorem char_chain_cast (L : Lawful D Rep) (B : Int) (F : StringFacets) (hF : ∀ U, (F.charset U).name.unitSize = U.size)
    (S T : CharT) (hST : S = .char32 → T = .char32) (signed signedT : Bool) (cs : List CharCall) (u : Nat)
    (hc : countOf cs < 2 ^ 63) (ha : wmin ≤ (charAlign cs).width ∧ (charAlign cs).width ≤ 2147450880) (n : Nat)
    (hn : FillCount (charAlign cs).width
      (min wmax (F.widthCalc.columns (F.charset T).name.cs [castUnit signed S T u] * 65536 * countOf cs)) n) :
    ((charChain cs).item D F S T signed signedT u).Means τ D Rep B
      (charMeaning ((F.charset T).name.charset D).encodeChar (charAlign cs) n (countOf cs) [castUnit signed S T u]
        (F.widthCalc.columns (F.charset T).name.cs [castUnit signed S T u] * 65536)) := by
  obtain ⟨h1, h2⟩ := char_chain_state cs
  have hcount : CInt.i64 (charChain cs).count = (countOf cs : Int) := by
    rw [h1]; unfold CInt.i64; omega
  unfold CharVal.item
  dsimp only
  rw [h2, hcount, if_neg (fun g => g.2 (hST g.1))]
  have := Print.multi_char_exact_partial (τ := τ) (D := D) (Rep := Rep) L (charset_lawful L (F.charset T).name) B F.widthCalc signedT
    (F.charset T).name.cs (castUnit signed S T u) (cs_units (hF T) (castUnit_units signed S T u)) (charAlign cs) ha (countOf cs) n hc hn
  unfold charMeaning
  rw [replicate_flatten_single]
  exact this

/-- An ASCII character keeps its code unit. -/
theorem cast_ascii (signed : Bool) (S T : CharT) (u : Nat) (hu : u < 0x80) : castUnit signed S T u = u := by
  have size : ∀ U : CharT, 1 ≤ U.size := by
    intro U; cases U with
    | wchar four => cases four <;> decide
    | _ => decide
  have hS : 2 ^ 7 ≤ 2 ^ (8 * S.size - 1) := Nat.pow_le_pow_right (by decide) (by have := size S; omega)
  have hT : 2 ^ 7 ≤ 2 ^ (8 * T.size) := Nat.pow_le_pow_right (by decide) (by have := size T; omega)
  have hT' : ((2 ^ (8 * T.size) : Nat) : Int) = 2 ^ (8 * T.size) := by push_cast; rfl
  unfold castUnit
  rw [if_neg (by omega), Int.emod_eq_of_lt (by omega) (by omega)]
  rfl

/-- An ASCII character has the same code unit in all charsets of the library. -/
theorem ascii_text (s d : CsName) (u : Nat) (hu : u < 0x80) : s.cs.textIn d.cs [u] = [u] := by
  have h1 : (s.cs.read [u]).map Prod.fst = [u] := by
    cases s with
    | utf e =>
      have : ∀ u : Fin 128, ((Cs.utf e).read [u.val]).map Prod.fst = [u.val] := by cases e <;> decide +kernel
      exact this ⟨u, hu⟩
    | sbc i =>
      have : ∀ i : Fin 25, ∀ u : Fin 128, ((CsName.sbc i).cs.read [u.val]).map Prod.fst = [u.val] := by decide +kernel
      exact this i ⟨u, hu⟩
  have h2 : d.cs.encode u = [u] := by
    cases d with
    | utf e =>
      have : ∀ u : Fin 128, (Cs.utf e).encode u.val = [u.val] := by cases e <;> decide +kernel
      exact this ⟨u, hu⟩
    | sbc i =>
      have : ∀ i : Fin 25, ∀ u : Fin 128, (CsName.sbc i).cs.encode u.val = [u.val] := by decide +kernel
      exact this i ⟨u, hu⟩
  unfold Cs.textIn
  rw [h1]
  simp [h2]

/-- the theorem applies to `strf::to_u16string(strf::fmt('a'))`, the value of which is 0x61; of `'\\xE9'` it is not 0xE9 -/
example : CharT.char = .char32 → CharT.char16 = .char32 := by decide
example : castUnit true .char .char16 0x61 = 0x61 ∧ castUnit true .char .char16 0xE9 = 0xFFE9 ∧ castUnit false .char .char16 0xE9 = 0xE9 := by
  decide

end Strf.Format

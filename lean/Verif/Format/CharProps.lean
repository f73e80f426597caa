import Verif.Format.CharModel
import Verif.Format.StringProps
/-!
# C70: format functions of characters and booleans
-/
namespace Strf.Format
open Strf.IntPrinter (AlignFmt)
open Strf.IntDigits.Spec (Lettercase)
open Strf.IntPrinter.Spec (times before)
open Strf.Print (Item Cs Calc Charset FillCount padded Meaning boolText)
open Strf.Dest (Dest Lawful Prints)
open Strf.Width (wmax wmin)

variable {σ : Type} {D : Dest Nat σ} {Rep : σ → List Nat → Prop} {C : Charset σ}

structure CStateOf (cs : List CharCall) (v : CharVal) : Prop where
  count : v.count = countOf cs
  align : v.align.getD AlignFmt.dflt = charAlign cs

theorem charAlignCalls_append (cs : List CharCall) (c : CharCall) : charAlignCalls (cs ++ [c]) =
    charAlignCalls cs ++ (match c.align? with | none => [] | some a => [a]) := by
  unfold charAlignCalls
  rw [List.filterMap_append]
  cases h : c.align? <;> simp [List.filterMap_cons, h]

/-- after a chain of calls, the value holds the options given last -/
theorem char_chain_state (cs : List CharCall) : CStateOf cs (charChain cs) := by
  induction cs using List.reverseRecOn with
  | nil => exact ⟨rfl, rfl⟩
  | append_singleton cs c ih =>
    have : charChain (cs ++ [c]) = (charChain cs).step c := by simp [charChain]
    rw [this]
    obtain ⟨h1, h2⟩ := ih
    constructor
    · unfold countOf at *
      rw [last_append]
      cases c with
      | multi n => simp only [CharVal.step, safeCastSize, CharCall.count?, Option.getD_some]; split <;> omega
      | align a => exact h1
    · unfold charAlign at *
      rw [charAlignCalls_append]
      cases c with
      | multi n => simp only [CharCall.align?, List.append_nil]; exact h2
      | align a => exact (alignStep_ok _ a _ h2).1

theorem castUnit_same (signed : Bool) {T : CharT} {u : Nat} (h : T.Units [u]) : castUnit signed T T u = u := by
  have hu := h u (by simp)
  unfold castUnit
  have hpos : (0 : Int) < 2 ^ (8 * T.size) := by positivity
  have hu' : (u : Int) < 2 ^ (8 * T.size) := by exact_mod_cast hu
  split
  · rw [Int.sub_emod_right, Int.emod_eq_of_lt (by omega) hu']; simp
  · rw [Int.emod_eq_of_lt (by omega) hu']; simp

theorem replicate_flatten_single {α : Type} (n : Nat) (a : α) : (List.replicate n [a]).flatten = List.replicate n a := by
  induction n with
  | zero => rfl
  | succ n ih => rw [List.replicate_succ, List.flatten_cons, ih]; rfl

/-- C70 (part): a character with format functions, in any order and number: it is printed as many times as the last `multi` says
(not at all if that is negative, once if there is none), with as many fill characters as are missing to the width of the
alignment. A `char32_t` is encoded in the charset of the destination.

Missing: characters of another type (`char_cast_wrong`), and widths of more than 32767.5 columns
(`Print.char_align_overflow`). -/
theorem char_chain_exact_partial (L : Lawful D Rep) (B : Int) (F : StringFacets) (hF : ∀ U, (F.charset U).name.unitSize = U.size)
    (S T : CharT) (hS : S = T ∨ S = .char32) (signed signedT : Bool) (cs : List CharCall) (u : Nat) (hu : S.Units [u])
    (hc : countOf cs < 2 ^ 63) (ha : wmin ≤ (charAlign cs).width ∧ (charAlign cs).width ≤ 2147450880) (n : Nat)
    (hn : FillCount (charAlign cs).width (min wmax (F.widthCalc.columns (charCs F S T) [u] * 65536 * countOf cs)) n) :
    ((charChain cs).item D F S T signed signedT u).Means τ D Rep B
      (charMeaning ((F.charset T).name.charset D).encodeChar (charAlign cs) n (countOf cs)
        (charUnits ((F.charset T).name.charset D).encodeChar S T u) (F.widthCalc.columns (charCs F S T) [u] * 65536)) := by
  obtain ⟨h1, h2⟩ := char_chain_state cs
  have hcount : CInt.i64 (charChain cs).count = (countOf cs : Int) := by
    rw [h1]; unfold CInt.i64; omega
  unfold CharVal.item
  dsimp only
  rw [h2, hcount]
  unfold charCs charUnits at *
  by_cases hST : S = T
  · subst hST
    rw [if_neg (fun g => g.2 g.1), castUnit_same signed hu]
    simp only [if_true] at hn ⊢
    have := Print.multi_char_exact_partial (τ := τ) (D := D) (Rep := Rep) L (charset_lawful L (F.charset S).name) B F.widthCalc signedT (F.charset S).name.cs u
      (cs_units (hF S) hu) (charAlign cs) ha (countOf cs) n hc hn
    unfold charMeaning
    rw [replicate_flatten_single]
    exact this
  · have h32 : S = .char32 := hS.resolve_left hST
    subst h32
    rw [if_pos ⟨rfl, fun g => hST g.symm⟩]
    simp only [if_neg hST] at hn ⊢
    exact Print.multi_char32_exact_partial (D := D) (Rep := Rep) (charset_lawful L (F.charset T).name) B F.widthCalc false u
      (by simpa [CharT.size] using hu u (by simp)) (charAlign cs) ha (countOf cs) n hc hn

/-- C70: a character without format is printed once. -/
theorem raw_char_exact (L : Lawful D Rep) (B : Int) (F : StringFacets) (hF : ∀ U, (F.charset U).name.unitSize = U.size)
    (S T : CharT) (signed : Bool) (u : Nat) (hu : S.Units [u]) (it : Item σ) (hit : rawCharItem D F S T signed u = some it) :
    it.Means τ D Rep B (charMeaning ((F.charset T).name.charset D).encodeChar AlignFmt.dflt 0 1
        (charUnits ((F.charset T).name.charset D).encodeChar S T u) (F.widthCalc.columns (charCs F S T) [u] * 65536)) := by
  have hwm : wmax = 2147483647 := rfl
  unfold rawCharItem at hit
  unfold charCs charUnits charMeaning
  simp only [padded_zero]
  split_ifs at hit with h1 h2
  · subst h1
    cases hit
    have := Print.char_exact (τ := τ) (D := D) (Rep := Rep) L B F.widthCalc signed (F.charset S).name.cs u (cs_units (hF S) hu)
    have hr := Print.char_width_range F.widthCalc signed (F.charset S).name.cs u
    rw [Print.char_width_exact F.widthCalc signed (F.charset S).name.cs u (cs_units (hF S) hu)] at hr
    refine Item.Means.weaken this ?_ ?_ ?_ ?_ <;> simp only [if_true] <;> first | omega | simp
  · subst h2
    cases hit
    have h32 : (Cs.utf .utf32).Units [u] := by
      intro v hv; have := hu v hv; simpa [CharT.size, Utf.Enc.bound] using this
    have := Print.char32_exact (τ := τ) (D := D) (Rep := Rep) L (charset_lawful L (F.charset T).name) B F.widthCalc false u
      (by simpa [CharT.size] using hu u (by simp))
    have hr := Print.char_width_range F.widthCalc false (.utf .utf32) u
    rw [Print.char_width_exact F.widthCalc false (.utf .utf32) u h32] at hr
    refine Item.Means.weaken this ?_ ?_ ?_ ?_ <;> simp only [if_neg h1] <;> first | omega | simp

/-- C70: booleans. `columns` is the width asked for, rounded to an integer. -/
theorem bool_chain_exact (L : Lawful D Rep) (HC : C.Lawful D Rep) (B : Int) (lc : Lettercase) (as : List AlignCall)
    (hwid : CInt.InI32 (widthOf as)) (columns : Int) (hcol : WidthSpec.IsRound (widthOf as) columns) (x : Bool) (n : Nat)
    (hn : n = (columns - (boolText lc x).length).toNat) :
    (boolChainItem D C lc none x).Means τ D Rep B (.ofColumns (boolText lc x) (boolText lc x).length) ∧
    (boolChainItem D C lc (some as) x).Means τ D Rep B
      (.ofColumns (times C.encodeChar (before (alignOf as) n) (fillOf as) ++ boolText lc x ++
        times C.encodeChar (n - before (alignOf as) n) (fillOf as)) ((boolText lc x).length + n)) := by
  refine ⟨Print.boolItem_means L B lc x, ?_⟩
  have := Print.fmtBoolItem_means (τ := τ) (D := D) (Rep := Rep) L HC B lc ⟨fillOf as, alignOf as, widthOf as⟩ ⟨fillOf as, alignOf as, columns⟩
    ⟨rfl, rfl, hwid, hcol⟩ x n hn
  unfold boolChainItem
  dsimp only
  rw [alignChain_ok]
  exact this

/-! ### cases -/

/-- what a character with format functions prints through `strf::to_string` -/
def charPrinted (F : StringFacets) (S T : CharT) (signed : Bool) (cs : List CharCall) (u : Nat) : Option (List Nat) :=
  Print.printed ((charChain cs).item Dest.Maker.dest F S T signed false u)

/-- C70 fails for characters of another type: without format functions they do not compile; with them they do, and the
value is cast: `strf::to_u16string(strf::fmt('\\xE9'))` with Windows-1252, in which that is U+00E9, prints U+FFE9 if `char` is
signed; and `strf::to_string(strf::fmt(u'\\u20AC'))` the byte 0xAC. -/
theorem char_cast_wrong :
    charPrinted someFacets .char .char16 true [] 0xE9 = some [0xFFE9] ∧ (CsName.sbc 18).cs.textIn (.utf .utf16) [0xE9] = [0xE9] ∧
    (rawCharItem Dest.Maker.dest someFacets .char .char16 true 0xE9).isSome = false ∧
    charPrinted someFacets .char16 .char false [] 0x20AC = some [0xAC] ∧
    (Cs.utf .utf16).textIn (CsName.sbc 18).cs [0x20AC] = [0x80] := by
  decide +kernel

/-- `strf::to_u8string((strf::fmt(U'\\u20AC').multi(3).fill('.') ^ 9).multi(2))` -/
example : charPrinted someFacets .char32 .char8 false [.multi 3, .align (.fill 0x2E), .align (.center 327680), .multi 2] 0x20AC =
    some [0x2E, 0xE2, 0x82, 0xAC, 0xE2, 0x82, 0xAC, 0x2E, 0x2E] := by decide +kernel

/-- `multi(-5)` -/
example : charPrinted someFacets .char8 .char8 false [.multi (-5)] 0x61 = some [] := by decide +kernel

/-- the theorem applies -/
example : (∀ U, (someFacets.charset U).name.unitSize = U.size) ∧ CharT.char32.Units [0x20AC] ∧
    countOf [.multi 3, .align (.fill 0x2E), .align (.center 327680), .multi 2] = 2 ∧
    charAlign [.multi 3, .align (.fill 0x2E), .align (.center 327680), .multi 2] = ⟨0x2E, .center, 327680⟩ ∧
    someFacets.widthCalc.columns (charCs someFacets .char32 .char8) [0x20AC] = 1 ∧
    FillCount 327680 (min wmax (1 * 65536 * 2)) 3 := by
  refine ⟨?_, by decide, by decide, by decide, by decide +kernel, by decide +kernel⟩
  intro U
  rcases U with _ | _ | _ | _ | _ | _ <;> rfl

/-- `fmt(true) > 7` and its hypotheses -/
example : Print.printed (boolChainItem Dest.Maker.dest (Print.utf Dest.Maker.dest .utf8) .lower (some [.right 458752]) true) =
    some [0x20, 0x20, 0x20, 0x74, 0x72, 0x75, 0x65] ∧ WidthSpec.IsRound (widthOf [.right 458752]) 7 ∧
    (7 - ((boolText .lower true).length : Int)).toNat = 3 := by
  refine ⟨by decide +kernel, by unfold WidthSpec.IsRound; decide, by decide⟩

end Strf.Format

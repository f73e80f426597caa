import Verif.Print.CharProps
import Verif.Print.Props
import Mathlib.Tactic.ByContra
/-
Exactly where adding widths (C37) and aligning characters (C50) overflow.
-/
namespace Strf.Print
open Strf.Width Strf.WidthSpec
open Strf.IntPrinter (AlignFmt)
open Strf.Dest (Dest Lawful Prints)
open Strf.Utf (Enc)

variable {σ : Type} {D : Dest Nat σ} {Rep : σ → List Nat → Prop} {C : Charset σ}

theorem WOp.run_add (ws : List Int) : ∀ a : Acc, 0 ≤ a.width → a.width ≤ wmax → (∀ w ∈ ws, 0 ≤ w) →
    ((∃ a', WOp.run (ws.map .add) a = some a') ↔ a.width + ws.sum ≤ wmax) := by
  induction ws with
  | nil => intro a h1 h2 _; simp [WOp.run]; exact h2
  | cons w ws ih =>
    intro a h1 h2 hw
    have hw0 := hw w (List.mem_cons_self ..)
    have htl : ∀ x ∈ ws, 0 ≤ x := fun x hx => hw x (List.mem_cons_of_mem _ hx)
    have hs : 0 ≤ ws.sum := by
      clear ih hw
      induction ws with
      | nil => simp
      | cons x xs ih =>
        have := htl x (List.mem_cons_self ..)
        have := ih fun y hy => htl y (List.mem_cons_of_mem _ hy)
        simp only [List.sum_cons]; omega
    have hwm : wmax = 2147483647 := rfl
    rw [List.map_cons, WOp.run, List.sum_cons]
    unfold Acc.addWidth Width.add CInt.chk32
    by_cases hc : a.width + w ≤ wmax
    · rw [if_pos (by omega)]
      simp only [Option.map_some, Option.bind_some]
      rw [ih _ (by simp only; omega) (by simp only; omega) htl]
      simp only
      omega
    · rw [if_neg (by omega)]
      simp only [Option.map_none, Option.bind_none]
      constructor
      · rintro ⟨_, h⟩; cases h
      · intro h; omega

/-- C37, exactly: adding widths with add_width is defined if and only if their sum is at most the greatest width_t,
whatever the limit. -/
theorem add_width_iff (limit : Int) (ws : List Int) (hw : ∀ w ∈ ws, 0 ≤ w) :
    (∃ a, WOp.run (ws.map .add) (.init limit) = some a) ↔ ws.sum ≤ wmax := by
  rw [WOp.run_add ws (.init limit) (by simp [Acc.init]) (by simp [Acc.init]; decide) hw]
  simp [Acc.init]

example : ¬ ∃ a, WOp.run ([30000 * 65536, 3000 * 65536].map .add) (.init 65536) = some a := by
  rw [add_width_iff _ _ (by decide)]; decide

theorem charInit_none (w : Int) (hw : 0 ≤ w ∧ w ≤ wmax) (a : AlignFmt) (ha : wmin ≤ a.width ∧ a.width ≤ wmax)
    (count n : Nat) (hc : count < 2 ^ 63) (hn : FillCount a.width (repeatedWidth w count) n)
    (hsum : wmax < repeatedWidth w count + n * 65536) (h0 : repeatedWidth w count ≠ 0) (p : Pre) : charInit w a count p = none := by
  have hwm : wmax = 2147483647 := rfl
  have hwn : wmin = -2147483648 := rfl
  have hmul : 0 ≤ w * (count : Int) := Int.mul_nonneg hw.1 (by omega)
  have hcl : WidthSpec.clamp (w * count) = repeatedWidth w count := by
    unfold WidthSpec.clamp repeatedWidth; omega
  have hr : 0 ≤ repeatedWidth w count ∧ repeatedWidth w count ≤ wmax := by unfold repeatedWidth; omega
  unfold charInit
  rw [satMulI64_exact w count (by unfold CInt.InI32; omega) (by unfold CInt.InI64; omega), hcl]
  simp only [Option.bind_some]
  unfold FillCount at hn
  by_cases hlt : repeatedWidth w count < a.width
  · rw [if_pos hlt] at hn ⊢
    have e : Width.round (a.width - repeatedWidth w count) = n :=
      IntPrinter.isRound_unique _ _ _ (Width.round_correct _ (by unfold CInt.InI32; omega)) hn
    unfold Width.sub CInt.chk32
    rw [if_pos (by omega)]
    simp only [Option.bind_some]
    rw [e, ofInt_columns]
    unfold Width.add CInt.chk32 columnsWidth
    unfold WidthSpec.IsRound at hn
    rw [if_neg (by omega)]
    rfl
  · rw [if_neg hlt] at hn
    subst hn
    omega

theorem charInit_zero (w : Int) (hw : 0 ≤ w ∧ w ≤ wmax) (a : AlignFmt) (ha : wmin ≤ a.width ∧ a.width ≤ wmax)
    (count n : Nat) (hc : count < 2 ^ 63) (hn : FillCount a.width (repeatedWidth w count) n)
    (h0 : repeatedWidth w count = 0) : charInit w a count ⟨none, none⟩ = some ⟨⟨none, none⟩, n⟩ := by
  have hwm : wmax = 2147483647 := rfl
  have hwn : wmin = -2147483648 := rfl
  have hmul : 0 ≤ w * (count : Int) := Int.mul_nonneg hw.1 (by omega)
  have hcl : WidthSpec.clamp (w * count) = repeatedWidth w count := by
    unfold WidthSpec.clamp repeatedWidth; omega
  unfold charInit
  rw [satMulI64_exact w count (by unfold CInt.InI32; omega) (by unfold CInt.InI64; omega), hcl, h0]
  rw [h0] at hn
  simp only [Option.bind_some]
  unfold FillCount at hn
  by_cases hlt : 0 < a.width
  · rw [if_pos hlt] at hn ⊢
    have e : Width.round (a.width - 0) = n :=
      IntPrinter.isRound_unique _ _ _ (Width.round_correct _ (by unfold CInt.InI32; omega)) hn
    unfold Width.sub CInt.chk32
    rw [if_pos (by omega)]
    simp only [Option.bind_some]
    rw [e, ofInt_columns]
    unfold Width.add CInt.chk32 columnsWidth
    rw [if_pos (by omega)]
    rfl
  · rw [if_neg hlt] at hn ⊢
    subst hn
    rfl

/-- C50, exactly: multi(c, count) with alignment is printed if and only if the width of the characters and of the fill
characters together is at most the greatest width_t, or the characters have no width at all (it is then saturated);
otherwise the calculation overflows. In any charset, with any
width calculator. -/
theorem multi_char_iff (L : Lawful D Rep) (HC : C.Lawful D Rep) (c : Calc) (signed : Bool) (s : Cs)
    (u : Nat) (h : s.Units [u]) (a : AlignFmt) (ha : wmin ≤ a.width ∧ a.width ≤ wmax) (count n : Nat)
    (hc : count < 2 ^ 63) (hn : FillCount a.width (min wmax (c.columns s [u] * 65536 * count)) n) :
    (∃ p' pr, (fmtCharItem D C (c.charWidth signed s u) a count u).make ⟨none, none⟩ = some (p', pr) ∧
      Prints τ D Rep pr (padded C.encodeChar a n (List.replicate count u))) ↔
    (min wmax (c.columns s [u] * 65536 * count) + n * 65536 ≤ wmax ∨ c.columns s [u] * count = 0) := by
  have hr := char_width_range c signed s u
  have hwm : wmax = 2147483647 := rfl
  have hz : c.columns s [u] * count = 0 ↔ repeatedWidth (c.charWidth signed s u) count = 0 := by
    rw [char_width_exact c signed s u h]
    unfold repeatedWidth
    have : c.columns s [u] * 65536 * (count : Int) = (c.columns s [u] * count) * 65536 := by
      rw [Int.mul_assoc, Int.mul_comm 65536, ← Int.mul_assoc]
    omega
  rw [hz]
  rw [← char_width_exact c signed s u h] at hn ⊢
  constructor
  · rintro ⟨p', pr, e, _⟩
    by_contra hcon
    unfold fmtCharItem at e
    dsimp only at e
    rw [charInit_none _ (by omega) a ha count n hc hn (by unfold repeatedWidth; omega) (by omega)] at e
    cases e
  · rintro (hs | hs)
    · obtain ⟨_, _, _, hm⟩ := fmtCharItem_means (D := D) L HC 0 _ (by omega) a ha count n hc hn hs u
      obtain ⟨p', pr, e, hp, _⟩ := hm ⟨none, none⟩ (by intro b hb; cases hb)
      exact ⟨p', pr, e, hp⟩
    · unfold fmtCharItem
      dsimp only
      rw [charInit_zero _ (by omega) a ha count n hc hn hs]
      exact ⟨_, _, rfl, fmtCharPrint_prints L HC a n count u⟩

/-- C50, exactly: the same for a char32_t printed to a destination of another character type. -/
theorem multi_char32_iff (HC : C.Lawful D Rep) (c : Calc) (signed : Bool)
    (u : Nat) (h : u < 2 ^ 32) (a : AlignFmt) (ha : wmin ≤ a.width ∧ a.width ≤ wmax) (count n : Nat)
    (hc : count < 2 ^ 63) (hn : FillCount a.width (min wmax (c.columns (.utf .utf32) [u] * 65536 * count)) n) :
    (∃ p' pr, (fmtConvCharItem C (c.charWidth signed (.utf .utf32) u) a count u).make ⟨none, none⟩ = some (p', pr) ∧
      Prints τ D Rep pr (padded C.encodeChar a n (List.replicate count (C.encodeChar u)).flatten)) ↔
    (min wmax (c.columns (.utf .utf32) [u] * 65536 * count) + n * 65536 ≤ wmax ∨
      c.columns (.utf .utf32) [u] * count = 0) := by
  have hr := char_width_range c signed (.utf .utf32) u
  have hwm : wmax = 2147483647 := rfl
  have hu : (Cs.utf .utf32).Units [u] := by intro v hv; simp at hv; subst hv; simpa [Enc.bound] using h
  have hz : c.columns (.utf .utf32) [u] * count = 0 ↔ repeatedWidth (c.charWidth signed (.utf .utf32) u) count = 0 := by
    rw [char_width_exact c signed (.utf .utf32) u hu]
    unfold repeatedWidth
    have : c.columns (.utf .utf32) [u] * 65536 * (count : Int) = (c.columns (.utf .utf32) [u] * count) * 65536 := by
      rw [Int.mul_assoc, Int.mul_comm 65536, ← Int.mul_assoc]
    omega
  rw [hz]
  rw [← char_width_exact c signed (.utf .utf32) u hu] at hn ⊢
  constructor
  · rintro ⟨p', pr, e, _⟩
    by_contra hcon
    unfold fmtConvCharItem at e
    dsimp only at e
    rw [charInit_none _ (by omega) a ha count n hc hn (by unfold repeatedWidth; omega) (by omega)] at e
    cases e
  · rintro (hs | hs)
    · obtain ⟨_, _, _, hm⟩ := fmtConvCharItem_means (D := D) HC 0 _ (by omega) a ha count n hc hn hs u
      obtain ⟨p', pr, e, hp, _⟩ := hm ⟨none, none⟩ (by intro b hb; cases hb)
      exact ⟨p', pr, e, hp⟩
    · unfold fmtConvCharItem
      dsimp only
      rw [charInit_zero _ (by omega) a ha count n hc hn hs]
      exact ⟨_, _, rfl, fmtConvCharPrint_prints HC a n count u⟩

/-- 32767 letters in 32767.6 columns: one fill character, and the calculation overflows -/
example : FillCount 2147457433 (min wmax (65536 * (32767 : Nat))) 1 ∧ ¬ min wmax (65536 * (32767 : Nat)) + (1 : Nat) * 65536 ≤ wmax := by
  decide

end Strf.Print

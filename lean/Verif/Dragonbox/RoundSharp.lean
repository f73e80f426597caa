import Verif.Dragonbox.RoundProps
import Mathlib.Tactic.Linarith
/-!
# C82: exactly when a precision rounds the number itself

`precision_nearest_partial` needs that no tie is between the number and its shortest decimal, nor equal to one of them. Here the condition is exact: the number
itself is rounded if and only if the two are on the same side of each tie, where a tie is on the side of the even multiple.
-/
namespace Strf.Dragonbox
open Strf.Float Strf.Dragonbox.Spec
open Strf.IntDigits.Spec (Lettercase)
open Strf.IntPrinter (AlignFmt LayoutOf)
open Strf.IntPrinter.Spec (Showsign Layout)
open Strf.Print
open Strf.Dest (Dest Lawful Prints)
open Strf.Float.Spec (readNumber Rounded lastPlace sciExp)

/-- `x` is on the lower side of the tie between `k` and `k + 1` times `u` -/
def Below (u x : ℚ) (k : Nat) : Prop := x < ((k : ℚ) + 1 / 2) * u ∨ (x = ((k : ℚ) + 1 / 2) * u ∧ k % 2 = 0)

/-- no tie separates the two numbers -/
def SameSide (u s v : ℚ) : Prop := ∀ k : Nat, Below u s k ↔ Below u v k

theorem Below.mono {u x : ℚ} (hu : 0 < u) {j k : Nat} (h : j ≤ k) (hb : Below u x j) : Below u x k := by
  rcases Nat.eq_or_lt_of_le h with rfl | h
  · exact hb
  · left
    have hjk : ((j : ℚ) + 1) ≤ k := by exact_mod_cast h
    have : ((j : ℚ) + 1 / 2) * u < ((k : ℚ) + 1 / 2) * u := by nlinarith
    rcases hb with hb | ⟨hb, -⟩ <;> linarith

/-- A number is rounded to `k · u` if it is below the tie above that and not below the one under it. -/
theorem rounded_iff {u x : ℚ} (hu : 0 < u) (hx : 0 ≤ x) (k : Nat) : Rounded u x (k * u) ↔ Below u x k ∧ ∀ j, j + 1 = k → ¬ Below u x j := by
  constructor
  · rintro ⟨k', e, h1, h2⟩
    have hk : (k : ℚ) = k' := mul_right_cancel₀ hu.ne' e
    have hk : k = k' := by exact_mod_cast hk
    subst hk
    rw [abs_le] at h1
    constructor
    · rcases lt_or_eq_of_le (show x ≤ ((k : ℚ) + 1 / 2) * u by linarith) with h | h
      · exact .inl h
      · refine .inr ⟨h, h2 ?_⟩
        rw [h, show (k : ℚ) * u - ((k : ℚ) + 1 / 2) * u = -(u / 2) by ring, abs_neg, abs_of_pos (by linarith)]
    · rintro j rfl hb
      push_cast at h1 h2
      rcases hb with hb | ⟨hb, hj⟩
      · linarith
      · have := h2 (by rw [hb, show ((j : ℚ) + 1) * u - ((j : ℚ) + 1 / 2) * u = u / 2 by ring, abs_of_pos (by linarith)])
        omega
  · rintro ⟨hb, hj⟩
    have hup : x ≤ ((k : ℚ) + 1 / 2) * u := by rcases hb with h | ⟨h, -⟩ <;> linarith
    have hlo : ((k : ℚ) - 1 / 2) * u ≤ x := by
      rcases k with _ | j
      · push_cast; linarith
      · by_contra hlt
        refine hj j rfl (.inl ?_)
        push_cast at hlt
        linarith
    refine ⟨k, rfl, abs_le.mpr ⟨by linarith, by linarith⟩, fun h => ?_⟩
    rcases abs_eq (by linarith : (0 : ℚ) ≤ u / 2) |>.mp h with h | h
    · rcases k with _ | j
      · rfl
      · push_cast at h
        by_contra hodd
        exact hj j rfl (.inr ⟨by linarith, by omega⟩)
    · rcases hb with h' | ⟨-, h'⟩
      · linarith
      · exact h'

/-- Of two numbers, the one is rounded to what the other is rounded to if and only if no tie separates them. -/
theorem rounded_same_iff {u s v q : ℚ} (hu : 0 < u) (hs : 0 ≤ s) (hv : 0 ≤ v) (h : Rounded u s q) : Rounded u v q ↔ SameSide u s v := by
  obtain ⟨k, rfl, -⟩ := id h
  rw [rounded_iff hu hs] at h
  rw [rounded_iff hu hv]
  have hj : ∀ {x : ℚ}, (∀ j, j + 1 = k → ¬ Below u x j) → ∀ j, j < k → ¬ Below u x j := by
    intro x hx j hjk hb
    exact hx (k - 1) (by omega) (hb.mono hu (by omega))
  constructor
  · rintro ⟨h1, h2⟩ j
    rcases Nat.lt_or_ge j k with hlt | hge
    · exact iff_of_false (hj h.2 j hlt) (hj h2 j hlt)
    · exact iff_of_true (h.1.mono hu hge) (h1.mono hu hge)
  · intro hss
    exact ⟨(hss k).mp h.1, fun j hjk hb => h.2 j hjk ((hss j).mpr hb)⟩

variable {σ : Type} {D : Dest Nat σ} {Rep : σ → List Nat → Prop} {C : Charset σ}

/-- C82: what is printed is the number itself rounded, as `printf` does it, if and only if no tie separates the number from its shortest decimal. -/
theorem precision_nearest_iff (L : Lawful D Rep) (HC : C.Lawful D Rep) (T : FloatT) (bits : Nat) (hfin : Float.Finite T bits)
    (lc : Lettercase) (f : FloatFmt) (hf : FmtOk f) (n : Nat) (hprec : f.precision = n) (hhex : f.nota ≠ .hex)
    (hsign : f.sign ≠ .fillInstead) (a : AlignFmt) (lay : Layout) (hl : LayoutOf a lay) (hno : lay.columns ≤ 0) (unitBits : Nat)
    (hc : f.nota = .general → CarryOk [] false .general (some n) f.showpoint f.sign (signBit T bits)
      (decode toDecimal T bits).m10 (decode toDecimal T bits).e10) :
    ∃ p pre txt q m e, Printer.makePlain C toDecimal lc T bits f a = some (p, pre) ∧ Prints τ D Rep (p.print D C unitBits) txt ∧
      readNumber txt = some (signBit T bits, q) ∧
      ReadsAs T.mSize T.eSize (expBits T bits) (manBits T bits) (decimal m e) ∧
      (¬ (expBits T bits = 0 ∧ manBits T bits = 0) → IsShortest T.mSize T.eSize (expBits T bits) (manBits T bits) m e) ∧
      (Rounded (10 ^ lastPlace (specNotation f.nota) n (sciExp m e)) (value T.mSize T.eSize (expBits T bits) (manBits T bits)) q ↔
        SameSide (10 ^ lastPlace (specNotation f.nota) n (sciExp m e)) (decimal m e) (value T.mSize T.eSize (expBits T bits) (manBits T bits))) := by
  obtain ⟨p, pre, txt, q, m, e, h1, h2, h3, h4, h5, h6⟩ := precision_rounds_partial L HC T bits hfin lc f hf n hprec hhex hsign a lay hl hno unitBits hc
  refine ⟨p, pre, txt, q, m, e, h1, h2, h3, h4, h5, rounded_same_iff (by positivity) ?_ (value_nonneg _ _ _ _) h6⟩
  unfold decimal
  positivity

/-- 2.675 is above the tie and the double nearest to it is below; 0.125 with two digits is a tie, and both are equal -/
example : ¬ SameSide (10 ^ lastPlace .fixed 2 0) (2675 / 1000) (3011782250804019 / 1125899906842624) ∧ SameSide (10 ^ lastPlace .fixed 2 (-1)) (125 / 1000) (1 / 8) := by
  constructor
  · intro h
    have := (h 267).mpr (.inl (by norm_num [lastPlace]))
    rcases this with h | ⟨-, h⟩
    · norm_num [lastPlace] at h
    · revert h; decide
  · intro k; rw [show (125 / 1000 : ℚ) = 1 / 8 by norm_num]

end Strf.Dragonbox

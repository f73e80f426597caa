import Verif.Float.Body
/-
Lemmas: the scientific notation of punct_double_printer.
-/
namespace Strf.Float
open Strf.Float.Spec hiding Notation
open Strf.IntDigits Strf.IntDigits.Spec Strf.Numpunct Strf.Numpunct.Spec Strf.Print
open Strf.IntPrinter (b2n b2i AlignFmt signChar printFill)
open Strf.IntPrinter.Spec (Showsign Align before times)
open Strf.Dest (Dest Lawful Prints)

variable {σ : Type} {D : Dest Nat σ} {Rep : σ → List Nat → Prop} {C : Charset σ}

/-- the digits of the number in scientific notation -/
theorem sciDigits (point : List Nat) (alt : Bool) (m x : Nat) :
    body point [] [] false alt (m * 10 ^ x) ((numeral 10 m).length - 1 + x) =
      text 10 .lower (m / 10 ^ ((numeral 10 m).length - 1)) ++
      (if alt ∨ 0 < (numeral 10 m).length - 1 + x then point else []) ++
      (decDigits ((numeral 10 m).length - 1) m ++ List.replicate x 0x30) := by
  rw [body_eq, grouped_plain [] [] false _ _ (by rw [text_length]) (by rw [split_nil_length]), decDigits_mul,
    Nat.pow_add, Nat.mul_div_mul_right _ _ (Nat.pow_pos (by decide))]

theorem sciField_eq (m : Nat) (point : List Nat) (pp : Bool) (hp : (numeral 10 m).length ≠ 1 → pp = true) (hpt : 1 ≤ point.length) :
    sciField (numeral 10 m).length point.length m pp point = some (
      text 10 .lower (m / 10 ^ ((numeral 10 m).length - 1)) ++ (if pp then point else []) ++
      decDigits ((numeral 10 m).length - 1) m) := by
  unfold sciField
  obtain ⟨c, h1, h2⟩ := first_digit m
  by_cases hl : (numeral 10 m).length = 1
  · have hm : m < 10 := by have := lt_of_len m 1 (by omega); omega
    rw [if_pos hl, hl]
    simp [decDigits, text_lt m hm]
  · rw [if_neg hl, back10_eq]
    dsimp only
    rw [if_pos (text_length _ _ _), h1, hp hl, if_pos rfl, h2]
    unfold overwrite
    obtain ⟨k, hk⟩ := Nat.exists_eq_add_of_le hpt
    obtain ⟨u, us, rfl⟩ : ∃ u us, point = u :: us := by cases point with | nil => simp at hpt | cons a b => exact ⟨a, b, rfl⟩
    simp only [List.length_cons, List.length_nil, List.replicate_succ, List.take_zero, List.nil_append, List.cons_append, List.headD_cons,
      List.take_succ_cons, Nat.zero_add, List.drop_succ_cons, List.drop_zero]
    rw [show 1 + (us.length + 1) = (us.length + 1) + 1 by omega, List.drop_succ_cons, List.drop_append]
    simp

theorem sci_prints (L : Lawful D Rep) (HC : C.Lawful D Rep) (p : Printer) (gs : List Nat) (rep alt : Bool) (sh : Shape) (sep : List Nat)
    (h : SciOk alt sh p.data) (hps : p.pointSize = if p.data.showpoint then C.charSize p.point else 0) :
    Prints τ D Rep (fun s => printSciNotation D C p.lc p.data.m p.data.digcount.toNat p.point p.pointSize
        (p.data.e + p.data.digcount - 1) p.data.showpoint p.data.extra s)
      (number p.lc (C.encodeChar p.point) sep gs rep alt sh) := by
  have hl := len_le p.data.m 17 (by decide) h.lt
  have hlp := len_pos10 p.data.m
  have hshort := HC.short p.point
  have hcs := HC.size p.point
  have hpu := pointUnits_eq HC p.point
  have hnum : number p.lc (C.encodeChar p.point) sep gs rep alt sh =
      body (C.encodeChar p.point) [] [] false alt sh.digits sh.frac ++ expText p.lc (p.data.e + p.data.digcount - 1) := by
    unfold number; rw [h.exp]
  rw [hnum, h.digits, h.frac, sciDigits, ← expChars_eq _ _ h.small]
  have hpt : (alt = true ∨ 0 < (numeral 10 p.data.m).length - 1 + p.data.extra.toNat) ↔ p.data.showpoint = true := by
    rw [h.point, h.frac]; simp
  have hpp : (p.data.showpoint || decide (p.data.digcount.toNat ≠ 1)) = p.data.showpoint := by
    rw [h.digcount, Int.toNat_natCast]
    by_cases h1 : (numeral 10 p.data.m).length = 1
    · simp [h1]
    · rw [hpt.mp (.inr (by omega))]; rfl
  have hsp : (numeral 10 p.data.m).length ≠ 1 → p.data.showpoint = true := fun h1 => hpt.mp (.inr (by omega))
  have hfield : sciField p.data.digcount.toNat p.pointSize p.data.m p.data.showpoint (pointUnits C p.point) = some (
      text 10 .lower (p.data.m / 10 ^ ((numeral 10 p.data.m).length - 1)) ++
      (if alt ∨ 0 < (numeral 10 p.data.m).length - 1 + p.data.extra.toNat then C.encodeChar p.point else []) ++
      decDigits ((numeral 10 p.data.m).length - 1) p.data.m) := by
    simp only [hpt]
    rw [h.digcount, Int.toNat_natCast, hpu]
    by_cases hq : p.data.showpoint = true
    · rw [hps, if_pos hq, hcs]
      exact sciField_eq _ _ _ hsp hshort.1
    · have h1 : (numeral 10 p.data.m).length = 1 := by by_contra hc; exact hq (hsp hc)
      have hm : p.data.m < 10 := by have := lt_of_len p.data.m 1 (by omega); omega
      unfold sciField
      rw [if_pos h1, h1]
      simp [decDigits, text_lt _ hm]
  have hf1 : (text 10 .lower (p.data.m / 10 ^ ((numeral 10 p.data.m).length - 1))).length = 1 := by
    rw [text_length, len_div _ _ (by omega)]; omega
  have hexl : (expChars p.lc (p.data.e + p.data.digcount - 1)).length =
      if (p.data.e + p.data.digcount - 1).natAbs ≥ 100 then 5 else 4 := by
    unfold expChars; dsimp only; split_ifs <;> simp
  have h1 := L.prints_raw (τ := τ) (p.data.digcount.toNat + (if p.data.showpoint then p.pointSize else 0))
    (text 10 .lower (p.data.m / 10 ^ ((numeral 10 p.data.m).length - 1)) ++
      (if alt ∨ 0 < (numeral 10 p.data.m).length - 1 + p.data.extra.toNat then C.encodeChar p.point else []) ++
      decDigits ((numeral 10 p.data.m).length - 1) p.data.m)
    (by simp only [hpt]
        rw [List.length_append, List.length_append, hf1, decDigits_length, h.digcount, hps]
        split_ifs <;> (try rw [List.length_nil]) <;> omega)
    (by rw [hps]; split_ifs <;> (rw [h.digcount]; omega))
  have := Prints.comp h1 (Prints.comp (L.prints_fill (τ := τ) p.data.extra 0x30)
    (L.prints_raw (τ := τ) (if (p.data.e + p.data.digcount - 1).natAbs ≥ 100 then 5 else 4) (expChars p.lc (p.data.e + p.data.digcount - 1)) hexl
      (by split_ifs <;> omega)))
  simp only [List.append_assoc] at this ⊢
  refine prints_congr this fun s => ?_
  unfold printSciNotation
  dsimp only
  rw [hpp, hfield, Option.bind_some]
  simp only [List.append_assoc]

theorem printScientific_eq (p : Printer) (s : σ) :
    printScientific D C p s = (signZeros D p.data s).bind (fun s => printSciNotation D C p.lc p.data.m p.data.digcount.toNat p.point p.pointSize
        (p.data.e + p.data.digcount - 1) p.data.showpoint p.data.extra s) := by
  unfold printScientific signZeros
  dsimp only
  rw [Option.bind_assoc]

end Strf.Float

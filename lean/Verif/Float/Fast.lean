import Verif.Float.Digits
/-
Lemmas: fast_double_printer.
-/
namespace Strf.Float
open Strf.Float.Spec hiding Notation
open Strf.IntDigits Strf.IntDigits.Spec Strf.Numpunct Strf.Numpunct.Spec Strf.Print
open Strf.IntPrinter (b2n b2i)
open Strf.Dest (Dest Lawful Prints)

variable {σ : Type} {D : Dest Nat σ} {Rep : σ → List Nat → Prop}

/-- What the conversion to decimal may return: at most 17 digits, the last of which is not zero, and an exponent that has
no more than three digits; for zero, zero. -/
structure GoodDec (m : Nat) (e : Int) : Prop where
  lt : m < 10 ^ 17
  lo : -400 ≤ e
  hi : e ≤ 400
  zero : m = 0 → e = 0
  last : m ≠ 0 → m % 10 ≠ 0

theorem GoodDec.lt64 {m : Nat} {e : Int} (h : GoodDec m e) : m < 2 ^ 64 := lt_trans h.lt (by decide)
theorem GoodDec.len {m : Nat} {e : Int} (h : GoodDec m e) : (numeral 10 m).length ≤ 17 := len_le m 17 (by decide) h.lt

/-! ### lengths of the two notations -/

theorem split_one (gs : List Nat) (rep : Bool) (hg : Valid gs rep) : split gs rep 1 = [1] := by
  unfold split; rw [splitFrom]
  cases hgs : groupSize gs rep 0 with
  | none => rfl
  | some g => have := (hg.2.1 g (groupSize_mem gs rep 0 g hgs)).1; simp [this]

theorem split_zero (gs : List Nat) (rep : Bool) : split gs rep 0 = [0] := rfl

/-- the integer part of the fixed notation -/
theorem fixed_int (m : Nat) (e : Int) : m * 10 ^ e.toNat / 10 ^ (-e).toNat =
    if 0 ≤ e then m * 10 ^ e.toNat else m / 10 ^ (-e).toNat := by
  split_ifs with h
  · rw [show (-e).toNat = 0 by omega]; simp
  · rw [show e.toNat = 0 by omega]; simp

/-- how many digits it has -/
theorem fixed_int_len (m : Nat) (e : Int) (hz : m = 0 → e = 0) :
    ((numeral 10 (m * 10 ^ e.toNat / 10 ^ (-e).toNat)).length : Int) = max 1 ((numeral 10 m).length + e) := by
  have hp := len_pos10 m
  rw [fixed_int]
  split_ifs with h
  · by_cases h0 : m = 0
    · rw [hz h0, h0]; simp [numeral]
    · rw [len_mul m _ h0]; push_cast; omega
  · rw [len_div_eq]
    split_ifs <;> push_cast <;> omega

theorem exactFixed_columns (gs : List Nat) (rep alt : Bool) (m : Nat) (e : Int) (hz : m = 0 → e = 0) :
    (columns gs rep alt (exactFixed m e) : Int) = max 1 ((numeral 10 m).length + e) +
      ((split gs rep (max 1 ((numeral 10 m).length + e)).toNat).length - 1 : Nat) + (if alt ∨ e < 0 then 1 else 0) +
      (if e < 0 then -e else 0) := by
  unfold columns number exactFixed
  dsimp only
  rw [body_length]
  have := fixed_int_len m e hz
  rw [show (max 1 (((numeral 10 m).length : Int) + e)).toNat = (numeral 10 (m * 10 ^ e.toNat / 10 ^ (-e).toNat)).length by omega]
  rw [← this]
  push_cast
  simp only [List.length_singleton, Nat.mul_one]
  have h2 : (0 < (-e).toNat) = (e < 0) := by apply propext; constructor <;> omega
  simp only [h2]
  split_ifs <;> omega

theorem exactSci_columns (gs : List Nat) (rep alt : Bool) (m : Nat) (e : Int) (h : (sciExp m e).natAbs < 1000) :
    (columns gs rep alt (exactSci m e) : Int) = (numeral 10 m).length + (if alt ∨ (numeral 10 m).length ≠ 1 then 1 else 0) +
      4 + c2i (sciExp m e > 99 ∨ sciExp m e < -99) := by
  unfold columns number exactSci
  dsimp only
  rw [List.length_append, body_length]
  have hp := len_pos10 m
  push_cast
  rw [expText_length _ _ h, split_nil_length, len_div _ _ (by omega)]
  have h2 : (0 < (numeral 10 m).length - 1) = ((numeral 10 m).length ≠ 1) := by apply propext; constructor <;> omega
  simp only [h2]
  simp only [List.length_singleton]
  split_ifs <;> omega

theorem GoodDec.exp {m : Nat} {e : Int} (h : GoodDec m e) : (sciExp m e).natAbs < 1000 := by
  have := h.len
  have := h.lo
  have := h.hi
  have := len_pos10 m
  unfold sciExp; omega

/-- the choice of the notation: the constructor decides as the specification says -/
theorem fast_choice (m : Nat) (e : Int) (h : GoodDec m e) (lc : Lettercase) (neg : Bool) :
    (Fast.make ⟨m, e, neg, false, false⟩ lc).sci =
      decide (columns [] false false (exactSci m e) < columns [] false false (exactFixed m e)) := by
  unfold Fast.make
  dsimp only
  rw [count_eq m h.lt64]
  have e1 := exactSci_columns [] false false m e h.exp
  have e2 := exactFixed_columns [] false false m e h.zero
  rw [split_nil_length] at e2
  simp only [Bool.false_eq_true, false_or] at e1 e2
  have hp := len_pos10 m
  have hl := h.len
  rw [← Bool.decide_or]
  apply decide_eq_decide.mpr
  unfold c2i sciExp at e1
  push_cast
  have h1 : (columns [] false false (exactSci m e) < columns [] false false (exactFixed m e)) ↔
    ((columns [] false false (exactSci m e) : Int) < columns [] false false (exactFixed m e)) := by omega
  rw [h1, e1, e2]
  have := h.lo
  have := h.hi
  split_ifs <;> omega

/-- the sign -/
def minus (neg : Bool) : List Nat := if neg then [0x2D] else []

theorem minus_length (neg : Bool) : (minus neg).length = b2n neg := by cases neg <;> rfl

theorem pokeField_prints (L : Lawful D Rep) (n k : Nat) (xs : List Nat) (hx : xs.length = k) (hk : k = n) (hn : n ≤ 64) :
    Prints τ D Rep (fun s => pokeField D (Dest.ensure D s n) k xs) xs := by
  refine prints_congr (L.prints_raw (τ := τ) n xs (by omega) hn) fun s => ?_
  unfold pokeField; rw [if_pos hx]

theorem sciText (point : List Nat) (alt : Bool) (m : Nat) :
    body point [] [] false alt m ((numeral 10 m).length - 1) =
      text 10 .lower (m / 10 ^ ((numeral 10 m).length - 1)) ++
      (if alt ∨ (numeral 10 m).length ≠ 1 then point else []) ++ decDigits ((numeral 10 m).length - 1) m := by
  have hp := len_pos10 m
  rw [body_eq, grouped_plain [] [] false _ _ (by rw [text_length]) (by rw [split_nil_length])]
  have h2 : (0 < (numeral 10 m).length - 1) = ((numeral 10 m).length ≠ 1) := by apply propext; constructor <;> omega
  simp only [h2]

/-- the first digit -/
theorem first_digit (m : Nat) : ∃ c, text 10 .lower (m / 10 ^ ((numeral 10 m).length - 1)) = [c] ∧
    text 10 .lower m = c :: decDigits ((numeral 10 m).length - 1) m := by
  have hp := len_pos10 m
  have h1 : (text 10 .lower (m / 10 ^ ((numeral 10 m).length - 1))).length = 1 := by
    rw [text_length, len_div _ _ (by omega)]; omega
  obtain ⟨c, hc⟩ := List.length_eq_one_iff.mp h1
  refine ⟨c, hc, ?_⟩
  rw [text_split ((numeral 10 m).length - 1) m (by omega), hc]; rfl

theorem fastSig_eq (m : Nat) (h : m < 2 ^ 64) :
    fastSig (numeral 10 m).length m = some (body [0x2E] [] [] false false m ((numeral 10 m).length - 1)) := by
  unfold fastSig
  rw [sciText]
  obtain ⟨c, h1, h2⟩ := first_digit m
  by_cases hl : (numeral 10 m).length = 1
  · have hm : m < 10 := by have := lt_of_len m 1 (by omega); omega
    rw [if_pos hl, hl]
    simp [decDigits, text_lt m hm]
  · rw [if_neg hl, back10_eq]
    dsimp only
    rw [if_pos (text_length _ _ _), h1, if_pos (.inr hl), h2]
    unfold overwrite
    simp

/-- the unformatted number, in fixed notation, as the three cases write it -/
theorem exactFixed_text (point sep gs : List Nat) (rep alt : Bool) (m : Nat) (e : Int) :
    body point sep gs rep alt (exactFixed m e).digits (exactFixed m e).frac =
      if 0 ≤ e then
        grouped sep (split gs rep (numeral 10 (m * 10 ^ e.toNat)).length).reverse (text 10 .lower (m * 10 ^ e.toNat)) ++
          (if alt then point else [])
      else grouped sep (split gs rep (numeral 10 (m / 10 ^ (-e).toNat)).length).reverse (text 10 .lower (m / 10 ^ (-e).toNat)) ++
        point ++ decDigits (-e).toNat m := by
  rw [body_eq]
  unfold exactFixed
  dsimp only
  rw [fixed_int]
  by_cases h : 0 ≤ e
  · rw [if_pos h, if_pos h, show (-e).toNat = 0 by omega]
    simp [decDigits]
  · rw [if_neg h, if_neg h, show e.toNat = 0 by omega, if_pos (.inr (by omega))]
    simp

theorem fast_finite (L : Lawful D Rep) (m : Nat) (e : Int) (h : GoodDec m e) (lc : Lettercase) (neg : Bool) :
    Prints τ D Rep ((Fast.make ⟨m, e, neg, false, false⟩ lc).print D)
      (minus neg ++ number lc [0x2E] [] [] false false (Spec.shape [] false .general none false m e)) ∧
    (Fast.make ⟨m, e, neg, false, false⟩ lc).size =
      (minus neg ++ number lc [0x2E] [] [] false false (Spec.shape [] false .general none false m e)).length := by
  have hch := fast_choice m e h lc neg
  have hc := count_eq m h.lt64
  have hp := len_pos10 m
  have hl := h.len
  have hm : (minus neg).length ≤ 1 := by cases neg <;> simp [minus]
  have hbn : (minus neg).length = b2n neg := minus_length neg
  unfold Spec.shape
  dsimp only
  by_cases hs : columns [] false false (exactSci m e) < columns [] false false (exactFixed m e)
  · rw [decide_eq_true hs] at hch
    rw [if_pos hs]
    have et : number lc [0x2E] [] [] false false (exactSci m e) =
        body [0x2E] [] [] false false m ((numeral 10 m).length - 1) ++ expChars lc (e - 1 + (numeral 10 m).length) := by
      unfold number exactSci
      dsimp only
      rw [show e - 1 + ((numeral 10 m).length : Int) = sciExp m e by unfold sciExp; omega, expChars_eq _ _ h.exp]
    have hsz : (body [0x2E] [] [] false false m ((numeral 10 m).length - 1)).length =
        (numeral 10 m).length + (if (numeral 10 m).length ≠ 1 then 1 else 0) := by
      rw [body_length, split_nil_length, len_div _ _ (by omega)]
      simp
      split_ifs <;> omega
    have hex : ((expChars lc (e - 1 + (numeral 10 m).length)).length : Int) = 4 +
        c2i (e - 1 + ((numeral 10 m).length : Int) > 99 ∨ e - 1 + ((numeral 10 m).length : Int) < -99) := by
      rw [show e - 1 + ((numeral 10 m).length : Int) = sciExp m e by unfold sciExp; omega, expChars_eq _ _ h.exp, expText_length _ _ h.exp]
    constructor
    · have hq := L.prints_raw (τ := τ) (b2n neg + (numeral 10 m).length + (if (numeral 10 m).length ≠ 1 then 1 else 0) + 4 +
        (if e - 1 + ((numeral 10 m).length : Int) > 99 ∨ e - 1 + ((numeral 10 m).length : Int) < -99 then 1 else 0))
        (minus neg ++ body [0x2E] [] [] false false m ((numeral 10 m).length - 1) ++ expChars lc (e - 1 + (numeral 10 m).length))
        (by rw [List.length_append, List.length_append, hsz]; unfold c2i at hex; split_ifs at hex ⊢ <;> omega)
        (by split_ifs <;> omega)
      rw [et]
      refine prints_congr (by rw [← List.append_assoc]; exact hq) fun s => ?_
      unfold Fast.print
      rw [hch]
      simp only [Fast.make, hc, if_true, Bool.false_eq_true, if_false]
      rw [fastSig_eq m h.lt64]
      rfl
    · rw [et, List.length_append, List.length_append, hsz]
      unfold Fast.size
      rw [hch]
      simp only [Fast.make, hc]
      push_cast
      rw [hex, hbn]
      unfold c2i
      cases neg <;> simp [b2i, b2n] <;> split_ifs <;> omega
  · rw [decide_eq_false hs] at hch
    rw [if_neg hs]
    have et : number lc [0x2E] [] [] false false (exactFixed m e) =
        if 0 ≤ e then text 10 .lower m ++ List.replicate e.toNat 0x30
        else text 10 .lower (m / 10 ^ (-e).toNat) ++ [0x2E] ++ decDigits (-e).toNat m := by
      show body [0x2E] [] [] false false (exactFixed m e).digits (exactFixed m e).frac = _
      rw [exactFixed_text]
      simp only [Bool.false_eq_true, if_false, List.append_nil]
      split_ifs with h1
      · rw [grouped_plain [] [] false _ _ (by rw [text_length]) (by rw [split_nil_length])]
        by_cases h0 : m = 0
        · rw [h.zero h0, h0]; simp
        · rw [text_mul m _ h0]
      · rw [grouped_plain [] [] false _ _ (by rw [text_length]) (by rw [split_nil_length])]
    rw [et]
    have htl := text_length 10 .lower m
    have eprint : ∀ s, (Fast.make ⟨m, e, neg, false, false⟩ lc).print D s =
        (fun s => if e ≥ 0 then
            (pokeField D s ((minus neg).length + (numeral 10 m).length) (minus neg ++ back10 m [])).bind fun s =>
            Dest.writeFill D s e 0x30
          else if (-e).toNat ≥ (numeral 10 m).length then
            (D.poke s (minus neg ++ [0x30, 0x2E])).bind fun s =>
            (Dest.writeFill D s ((-e).toNat - (numeral 10 m).length : Nat) 0x30).bind fun s =>
            pokeField D (Dest.ensure D s (numeral 10 m).length) (numeral 10 m).length (back10 m [])
          else pokeField D s ((minus neg).length + (numeral 10 m).length + 1)
            (minus neg ++ intLoop (fracLoop (-e).toNat m []).1 (0x2E :: (fracLoop (-e).toNat m []).2)))
        (Dest.ensure D s (b2n neg + (if e > -((numeral 10 m).length : Int) then (numeral 10 m).length else 0) +
          (if e ≤ -((numeral 10 m).length : Int) then 1 else 0) + (if e < 0 then 1 else 0))) := by
      intro s
      unfold Fast.print
      rw [hch]
      simp only [Fast.make, hc, Bool.false_eq_true, if_false]
      rfl
    by_cases h0 : 0 ≤ e
    · rw [if_pos h0]
      constructor
      · rw [← List.append_assoc]
        have hq := Prints.comp (pokeField_prints L (b2n neg + (numeral 10 m).length) ((minus neg).length + (numeral 10 m).length)
          (minus neg ++ text 10 .lower m) (by rw [List.length_append, htl]) (by omega) (by omega)) (L.prints_fill (τ := τ) e 0x30)
        refine prints_congr hq fun s => ?_
        rw [eprint, if_pos (by omega), if_neg (by omega), if_neg (by omega), back10_eq]
        dsimp only
        rw [if_pos (by omega)]
        rfl
      · unfold Fast.size
        rw [hch]
        simp only [Fast.make, hc]
        rw [List.length_append, List.length_append, List.length_replicate, htl, hbn]
        unfold c2i
        push_cast
        cases neg <;> simp [b2i, b2n] <;> split_ifs <;> omega
    · rw [if_neg h0]
      have hsz : (text 10 .lower (m / 10 ^ (-e).toNat) ++ [0x2E] ++ decDigits (-e).toNat m).length =
          (if (-e).toNat < (numeral 10 m).length then (numeral 10 m).length - (-e).toNat else 1) + 1 + (-e).toNat := by
        rw [List.length_append, List.length_append, text_length, len_div_eq, decDigits_length]
        rfl
      constructor
      · by_cases h1 : (-e).toNat ≥ (numeral 10 m).length
        · have hq := Prints.comp (L.prints_raw (τ := τ) (b2n neg + 0 + 1 + 1) (minus neg ++ [0x30, 0x2E]) (by simp; omega) (by omega))
            (Prints.comp (L.prints_fill (τ := τ) (((-e).toNat - (numeral 10 m).length : Nat) : Int) 0x30)
              (pokeField_prints L (numeral 10 m).length (numeral 10 m).length (text 10 .lower m) htl (by omega) (by omega)))
          rw [Nat.div_eq_of_lt (lt_of_len m _ h1), text_lt 0 (by omega), decDigits_small _ _ h1]
          rw [Int.toNat_natCast] at hq
          refine prints_congr (by convert hq using 1; simp) fun s => ?_
          rw [eprint, if_neg (by omega), if_pos (by omega), if_pos (by omega), back10_eq]
          dsimp only
          rw [if_neg (by omega), if_pos (by omega)]
        · have hq := pokeField_prints (τ := τ) L (b2n neg + (numeral 10 m).length + 0 + 1) ((minus neg).length + (numeral 10 m).length + 1)
            (minus neg ++ (text 10 .lower (m / 10 ^ (-e).toNat) ++ [0x2E] ++ decDigits (-e).toNat m))
            (by rw [List.length_append, hsz, if_pos (by omega)]; omega) (by omega) (by omega)
          refine prints_congr hq fun s => ?_
          rw [eprint, if_pos (by omega), if_neg (by omega), if_pos (by omega)]
          dsimp only
          rw [if_neg (by omega), if_neg h1, fracLoop_eq, intLoop_eq]
          simp
      · unfold Fast.size
        rw [hch]
        simp only [Fast.make, hc]
        rw [List.length_append, hsz, hbn]
        unfold c2i
        push_cast
        cases neg <;> simp [b2i, b2n] <;> split_ifs <;> omega

end Strf.Float

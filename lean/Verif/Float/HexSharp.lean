import Verif.Float.Props
import Verif.Dragonbox.HexProps
/-!
# C59, C61, C81: the hexadecimal notation where the claims fail

`Float.hex_partial` and `Dragonbox.hex_rounded_partial` leave out the numbers that carry to the digit before the point when they are rounded. Here: which ones
these are, and that what is printed for them is wrong in every case: the number without its fractional part.
-/
namespace Strf.Float
open Strf.IntDigits.Spec (Lettercase)
open Strf.IntPrinter Strf.IntPrinter.Spec
open Strf.Dest (Dest Lawful Prints)
open Strf.Float.Spec

/-- Rounding `lead + frac / 16^13` to `p` hexadecimal digits after the point gives `lead + 1`. -/
def Carries (lead frac p : Nat) : Prop :=
  p < 13 ∧ (2 * 16 ^ 13 < 2 * frac + 16 ^ (13 - p) ∨ (2 * 16 ^ 13 = 2 * frac + 16 ^ (13 - p) ∧ (p = 0 → lead % 2 = 1)))

instance (lead frac p : Nat) : Decidable (Carries lead frac p) := by unfold Carries; infer_instance

theorem carries_round {lead frac p : Nat} (hfrac : frac < 16 ^ 13) (hp : p < 13) :
    (Carries lead frac p → roundHex (lead * 16 ^ 13 + frac) (13 - p) = (lead + 1) * 16 ^ p) ∧
    (¬ Carries lead frac p → roundHex (lead * 16 ^ 13 + frac) (13 - p) / 16 ^ p = lead) := by
  have e1 : (16 : Nat) ^ 13 = 16 ^ p * 16 ^ (13 - p) := by rw [← Nat.pow_add]; congr 1; omega
  have hp0 : 0 < 16 ^ (13 - p) := Nat.pow_pos (by decide)
  have hq0 : 0 < 16 ^ p := Nat.pow_pos (by decide)
  have hev : p ≠ 0 → 16 ^ p % 2 = 0 := by
    intro h
    obtain ⟨i, hi⟩ : ∃ i, p = i + 1 := ⟨p - 1, by omega⟩
    rw [hi, Nat.pow_succ]; omega
  have hone : p = 0 → 16 ^ p = 1 := by rintro rfl; rfl
  unfold Carries roundHex
  dsimp only
  rw [e1, ← Nat.mul_assoc lead]
  have d1 : (lead * 16 ^ p * 16 ^ (13 - p) + frac) / 16 ^ (13 - p) = lead * 16 ^ p + frac / 16 ^ (13 - p) := by
    rw [Nat.add_comm, Nat.add_mul_div_right _ _ hp0, Nat.add_comm]
  have d2 : (lead * 16 ^ p * 16 ^ (13 - p) + frac) % 16 ^ (13 - p) = frac % 16 ^ (13 - p) := by
    rw [Nat.add_comm, Nat.add_mul_mod_self_right]
  rw [d1, d2]
  rw [e1] at hfrac
  generalize 16 ^ (13 - p) = P at *
  generalize hQ : 16 ^ p = Q at *
  have hdm : P * (frac / P) + frac % P = frac := Nat.div_add_mod frac P
  have hr : frac % P < P := Nat.mod_lt _ hp0
  have hql : frac / P < Q := Nat.div_lt_of_lt_mul (by rw [Nat.mul_comm]; exact hfrac)
  generalize frac / P = q at *
  generalize frac % P = r at *
  have hpar : (lead * Q + q) % 2 = if p = 0 then (lead + q) % 2 else q % 2 := by
    split_ifs with h
    · rw [hone h, Nat.mul_one]
    · have := hev h
      rw [Nat.add_mod, Nat.mul_mod, this]; simp
  rw [hpar]
  have hparP : p ≠ 0 → Q % 2 = 0 := hev
  -- the distance of q to Q - 1
  obtain ⟨t, ht⟩ : ∃ t, Q = q + 1 + t := ⟨Q - q - 1, by omega⟩
  have hmul : Q * P = P * q + P + t * P := by rw [ht]; ring
  have htP : t = 0 ∨ P ≤ t * P := by
    rcases Nat.eq_zero_or_pos t with h | h
    · exact .inl h
    · exact .inr (Nat.le_mul_of_pos_left _ h)
  have hz : t = 0 → t * P = 0 := by rintro rfl; simp
  have hfl : (lead * Q + q) / Q = lead := by
    rw [Nat.add_comm, Nat.add_mul_div_right _ _ hq0, Nat.div_eq_of_lt hql, Nat.zero_add]
  have hfl1 : t ≠ 0 → (lead * Q + q + 1) / Q = lead := by
    intro h
    rw [Nat.add_assoc, Nat.add_comm, Nat.add_mul_div_right _ _ hq0, Nat.div_eq_of_lt (by omega), Nat.zero_add]
  have hsucc : t = 0 → lead * Q + q + 1 = (lead + 1) * Q := by
    intro h; rw [Nat.add_mul, Nat.one_mul]; omega
  have hq1 : p = 0 → q = 0 ∧ t = 0 := by intro h; have := hone h; omega
  generalize t * P = tP at *
  constructor
  · rintro ⟨-, h⟩
    have ht0 : t = 0 := by
      rcases htP with h' | h'
      · exact h'
      · exfalso; omega
    have htz := hz ht0
    rw [if_neg, hsucc ht0]
    rintro (hlt | ⟨heq, hpp⟩)
    · omega
    · rcases h with h | ⟨h, h2⟩
      · omega
      · split_ifs at hpp with h0
        · have := h2 h0; have := hq1 h0; omega
        · have := hparP h0; omega
  · intro h
    by_cases ht0 : t = 0
    · have htz := hz ht0
      rw [if_pos]
      · exact hfl
      · by_cases hlt : 2 * r < P
        · exact .inl hlt
        · right
          have heq : 2 * r = P := by
            by_contra hne
            exact h ⟨hp, .inl (by omega)⟩
          refine ⟨heq, ?_⟩
          split_ifs with h0
          · by_contra hl
            have := hq1 h0
            exact h ⟨hp, .inr ⟨by omega, fun _ => by omega⟩⟩
          · exfalso
            exact h ⟨hp, .inr ⟨by omega, fun h' => absurd h' h0⟩⟩
    · by_cases hc : 2 * r < P ∨ 2 * r = P ∧ (if p = 0 then (lead + q) % 2 else q % 2) = 0
      · rw [if_pos hc]; exact hfl
      · rw [if_neg hc]; exact hfl1 ht0

theorem carry_ok_iff {lead frac p : Nat} (hfrac : frac < 16 ^ 13) : HexCarryOk lead frac (some p) ↔ ¬ Carries lead frac p := by
  by_cases hp : p < 13
  · have hsh : hexShape lead frac (some p) = (roundHex (lead * 16 ^ 13 + frac) (13 - p), p) := by
      unfold hexShape; dsimp only; rw [if_pos hp]
    unfold HexCarryOk
    rw [hsh]
    dsimp only
    constructor
    · intro h hc
      rw [(carries_round hfrac hp).1 hc, Nat.mul_div_cancel _ (Nat.pow_pos (by decide))] at h
      omega
    · exact (carries_round hfrac hp).2
  · refine iff_of_true (hex_no_carry lead frac (by simpa using hfrac) _ fun q hq => ?_) fun h => hp h.1
    injection hq with hq; omega

theorem carries_pos {lead frac p : Nat} (h : Carries lead frac p) : 0 < frac := by
  obtain ⟨hp, h⟩ := h
  have e1 : (16 : Nat) ^ 13 = 16 ^ p * 16 ^ (13 - p) := by rw [← Nat.pow_add]; congr 1; omega
  have : 16 ^ (13 - p) ≤ 16 ^ 13 := Nat.pow_le_pow_right (by decide) (by omega)
  by_contra h0
  have : frac = 0 := by omega
  subst this
  have : 0 < 16 ^ 13 := by decide
  omega

variable {σ : Type} {D : Dest Nat σ} {Rep : σ → List Nat → Prop} {C : Print.Charset σ}

set_option maxHeartbeats 1000000 in
/-- With a carry the data are those of a number without fractional part. -/
theorem initHex_carry {lead frac : Nat} {x : Int} {sign : Showsign} {neg : Bool} {fill : Nat} {pad0 : Int} {d : Data}
    (hs : StartOk sign neg fill pad0 frac x d) (hsubn : d.subnormal = decide (lead = 0)) (hfrac : frac < 2 ^ 52)
    (hx : x.natAbs < 10000) (f : FloatFmt) (hf : FmtOk f) {p : Nat} (hpp : f.precision = p) (hc : Carries lead frac p) (width : Int) (al : Align) :
    ∃ d', initHex f width al d = initFill d' width (max (d'.sub + d'.extra) d'.pad0) al ∧
      HexGood f.showpoint lead 0 x (some p) sign neg fill pad0 d' := by
  have hp13 := hc.1
  have hf16 : frac < 16 ^ 13 := by simpa using hfrac
  have h0 : frac ≠ 0 := by have := carries_pos hc; omega
  unfold initHex
  dsimp only
  rw [hs.m, hs.sub, hs.e, hsubn]
  have hneg : ¬ (decide (lead = 0) = true ∧ frac = 0) := by simp [h0]
  rw [if_neg hneg, if_neg h0]
  obtain ⟨k, u, hdc, hk, hm, hu⟩ := mantissa_digcount_spec frac h0 hfrac
  rw [hdc]
  rw [if_neg (by omega : ¬ f.precision < 0)]
  have hlt : ¬ f.precision ≥ 13 - (k : Int) := by
    intro hge
    refine (carry_ok_iff hf16).not_left.mpr hc ?_
    unfold HexCarryOk
    rw [hm, frac_hexShape lead u k hk hu (some p) (fun p' h => by cases h; omega)]
    simp only [Option.getD_some]
    have hul : u < 16 ^ (13 - k) := by
      have h1 : u * 16 ^ k < 16 ^ (13 - k) * 16 ^ k := by
        rw [← Nat.pow_add, show 13 - k + k = 13 by omega, ← hm]; exact hf16
      exact Nat.lt_of_mul_lt_mul_right h1
    have hq : p = 13 - k + (p - (13 - k)) := by omega
    conv_lhs => rw [hq]
    rw [Nat.add_sub_cancel_left, Nat.pow_add, Nat.mul_div_mul_right _ _ (Nat.pow_pos (by decide)), Nat.add_comm,
      Nat.add_mul_div_right _ _ (Nat.pow_pos (by decide)), Nat.div_eq_of_lt hul, Nat.zero_add]
  rw [if_neg hlt]
  have hsh := zero_hexShape lead (some p)
  simp only [Option.getD_some] at hsh
  refine ⟨_, rfl, ?_⟩
  refine HexGood.mk' ⟨rfl, ?_, ?_, ?_, ?_, ?_, ?_, ?_, ?_, ?_, ?_, ?_⟩ ⟨hs.sg.char, hs.sg.shown⟩ hs.fill hs.pad0 hx ?_ ?_
  all_goals (try dsimp only)
  all_goals (try rw [hsh])
  all_goals (try dsimp only)
  · exact exponent_digcount x hx
  · intro h
    exfalso
    unfold roundMantissa at h
    dsimp only at h
    have : 0 < 2 ^ ((13 - f.precision.toNat) * 4) := Nat.pow_pos (by decide)
    split_ifs at h <;> omega
  · omega
  · omega
  · decide
  · omega
  · rw [Bool.or_comm]; congr 1; rw [decide_eq_decide]; omega
  · exact Nat.mul_div_cancel _ (Nat.pow_pos (by decide))
  · intro lc
    rw [show f.precision.toNat = p by omega]
    by_cases hp0 : p = 0
    · rw [hp0]; rfl
    · have hr := (carries_round hf16 hp13).1 hc
      rw [roundMantissa_eq lead frac p hp13 (by omega), Nat.add_mul, Nat.one_mul] at hr
      have hr : roundMantissa p frac / 16 ^ (13 - p) = 1 * 16 ^ p := by omega
      have e0 := hexDigits_mul lc 0 p lead
      have e1 := hexDigits_mul lc 0 p 1
      rw [Nat.zero_add] at e0 e1
      rw [hr, e0, e1]; simp [hexDigits]
  · omega
  · decide

theorem initData_carry (toDec : ToDecimal) (T : FloatT) (bits : Nat) (hfin : Finite T bits) (grp : Nat)
    (f : FloatFmt) (hf : FmtOk f) (hhex : f.nota = .hex) (a : AlignFmt) (lay : Layout) (hl : LayoutOf a lay) {p : Nat} (hp : f.precision = p)
    (hc : Carries (hexLead T bits) (hexFrac T bits) p) :
    ∃ d', initData toDec T bits grp f a = initFill d' lay.columns (max (d'.sub + d'.extra) d'.pad0) lay.align ∧
      HexGood f.showpoint (hexLead T bits) 0 (hexExponent T bits) (some p) f.sign (signBit T bits) lay.fill f.pad0 d' := by
  have hlay := hl.columns
  subst hlay
  unfold initData
  dsimp only
  rw [if_neg hfin, if_pos hhex]
  have hs := start_ok f a (signBit T bits) (hexFrac T bits) ((expBits T bits : Int) - T.bias + b2i (decide (expBits T bits = 0)))
    (decide (expBits T bits = 0))
  have hlt := expBits_lt T bits
  have hx : ((expBits T bits : Int) - T.bias + b2i (decide (expBits T bits = 0))).natAbs < 10000 := by
    have : (0 : Int) ≤ b2i (decide (expBits T bits = 0)) ∧ b2i (decide (expBits T bits = 0)) ≤ 1 := by
      unfold b2i; split_ifs <;> simp
    cases T <;> simp only [FloatT.eSize, FloatT.bias] at * <;> omega
  have hpos := carries_pos hc
  have hexp : (expBits T bits : Int) - T.bias + b2i (decide (expBits T bits = 0)) = hexExponent T bits := by
    have hm : manBits T bits ≠ 0 := by
      intro h; unfold hexFrac at hpos; rw [h, Nat.zero_mul] at hpos; omega
    unfold hexExponent
    by_cases h0 : expBits T bits = 0
    · rw [h0, if_pos rfl, if_neg hm]; simp [b2i]; omega
    · simp [h0, b2i]
  obtain ⟨d', e, hg⟩ := initHex_carry (lead := hexLead T bits) hs (by unfold hexLead; split_ifs with h <;> simp [h])
    (hexFrac_lt T bits) hx f hf hp hc (Width.round a.width) a.align
  rw [hexp] at hg
  exact ⟨d', e, hg⟩

/-- the digits after the point that are printed: none of them if rounding carries -/
def keptFrac (lead frac : Nat) (prec : Option Nat) : Nat :=
  match prec with
  | none => frac
  | some p => if Carries lead frac p then 0 else frac

theorem initData_hex_all (toDec : ToDecimal) (T : FloatT) (bits : Nat) (hfin : Finite T bits) (f : FloatFmt) (hf : FmtOk f) (hhex : f.nota = .hex)
    (a : AlignFmt) (lay : Layout) (hl : LayoutOf a lay) (grp : Nat) :
    ∃ d', initData toDec T bits grp f a = initFill d' lay.columns (max (d'.sub + d'.extra) d'.pad0) lay.align ∧
      HexGood f.showpoint (hexLead T bits) (keptFrac (hexLead T bits) (hexFrac T bits) (precision f.precision)) (hexExponent T bits)
        (precision f.precision) f.sign (signBit T bits) lay.fill f.pad0 d' := by
  have hfr : hexFrac T bits < 16 ^ 13 := by have := hexFrac_lt T bits; simpa using this
  have hfp := hf.precision
  by_cases hn : f.precision < 0
  · have hpr : precision f.precision = none := by unfold precision; rw [if_pos (by omega)]
    have := initData_hex toDec T bits hfin grp f hf hhex a lay hl
      (by rw [hpr]; exact hex_no_carry _ _ (hexFrac_lt T bits) _ fun q hq => by cases hq)
    rw [hpr] at this ⊢
    exact this
  · obtain ⟨p, hpp⟩ : ∃ p : Nat, f.precision = p := ⟨f.precision.toNat, by omega⟩
    have hpr : precision f.precision = some p := by unfold precision; rw [if_neg (by omega), hpp]; rfl
    by_cases hc : Carries (hexLead T bits) (hexFrac T bits) p
    · have := initData_carry toDec T bits hfin grp f hf hhex a lay hl hpp hc
      rw [hpr]
      simpa [keptFrac, hc] using this
    · have := initData_hex toDec T bits hfin grp f hf hhex a lay hl (by rw [hpr]; exact (carry_ok_iff hfr).mpr hc)
      rw [hpr] at this ⊢
      simpa [keptFrac, hc] using this

/-- C59, C61: what is printed in hexadecimal notation, with its width and its size, for every number and precision: the number rounded to the precision, but the
number without the digits after the point if rounding carries to the digit before it. -/
theorem hex_all (L : Lawful D Rep) (HC : C.Lawful D Rep) (toDec : ToDecimal) (T : FloatT) (bits : Nat) (hfin : Finite T bits)
    (lc : Lettercase) (f : FloatFmt) (hf : FmtOk f) (hhex : f.nota = .hex) (a : AlignFmt) (lay : Layout) (hl : LayoutOf a lay) (unitBits : Nat) :
    let frac := keptFrac (hexLead T bits) (hexFrac T bits) (precision f.precision)
    (∃ p pre, Printer.makePlain C toDec lc T bits f a = some (p, pre) ∧
      Prints τ D Rep (p.print D C unitBits) (hexFormatted C.encodeChar lc 0x2E f lay (signBit T bits) (hexLead T bits) frac (hexExponent T bits)) ∧
      pre.width = hexWidth f lay (signBit T bits) (hexLead T bits) frac (hexExponent T bits) ∧
      pre.size = (hexFormatted C.encodeChar lc 0x2E f lay (signBit T bits) (hexLead T bits) frac (hexExponent T bits)).length) ∧
    ∀ np10 np16 : Numpunct.Facet, ∃ p pre, Printer.makePunct C toDec lc np10 np16 T bits f a = some (p, pre) ∧
      Prints τ D Rep (p.print D C unitBits)
        (hexFormatted C.encodeChar lc (usedPoint np16 f) f lay (signBit T bits) (hexLead T bits) frac (hexExponent T bits)) ∧
      pre.width = hexWidth f lay (signBit T bits) (hexLead T bits) frac (hexExponent T bits) ∧
      pre.size = (hexFormatted C.encodeChar lc (usedPoint np16 f) f lay (signBit T bits) (hexLead T bits) frac (hexExponent T bits)).length :=
  ⟨plain_hex_of L HC toDec T bits lc f hf a lay unitBits (initData_hex_all toDec T bits hfin f hf hhex a lay hl),
    fun np10 np16 => punct_hex_of L HC toDec T bits lc np10 np16 f hf hhex a lay unitBits (initData_hex_all toDec T bits hfin f hf hhex a lay hl)⟩

theorem carried_shape {lead frac p : Nat} (hfrac : frac < 16 ^ 13) (hc : Carries lead frac p) :
    hexShape lead frac (some p) = ((lead + 1) * 16 ^ p, p) ∧ hexShape lead 0 (some p) = (lead * 16 ^ p, p) := by
  refine ⟨?_, zero_hexShape lead (some p)⟩
  unfold hexShape
  dsimp only
  rw [if_pos hc.1, (carries_round hfrac hc.1).1 hc]

/-- C59 is false for each number that carries: the width and the size are right, one digit is not. And it is true of all others. -/
theorem hex_exact_iff (enc : Nat → List Nat) (lc : Lettercase) (point : Nat) (f : FloatFmt) (lay : Layout) (T : FloatT) (bits : Nat) :
    let lead := hexLead T bits
    let frac := hexFrac T bits
    let frac' := keptFrac lead frac (precision f.precision)
    (hexFormatted enc lc point f lay (signBit T bits) lead frac' (hexExponent T bits) =
        hexFormatted enc lc point f lay (signBit T bits) lead frac (hexExponent T bits) ↔
      ∀ p, precision f.precision = some p → ¬ Carries lead frac p) ∧
    hexWidth f lay (signBit T bits) lead frac' (hexExponent T bits) = hexWidth f lay (signBit T bits) lead frac (hexExponent T bits) ∧
    (hexFormatted enc lc point f lay (signBit T bits) lead frac' (hexExponent T bits)).length =
      (hexFormatted enc lc point f lay (signBit T bits) lead frac (hexExponent T bits)).length := by
  have hfr : hexFrac T bits < 16 ^ 13 := by have := hexFrac_lt T bits; simpa using this
  have hlead := hexLead_le T bits
  intro lead frac frac'
  cases hpr : precision f.precision with
  | none =>
    have : frac' = frac := by show keptFrac _ _ _ = _; rw [hpr]; rfl
    rw [this]
    exact ⟨iff_of_true rfl (fun p h => by cases h), rfl, rfl⟩
  | some p =>
    by_cases hc : Carries lead frac p
    · have h0 : frac' = 0 := by show keptFrac _ _ _ = _; rw [hpr]; simp only [keptFrac]; rw [if_pos hc]
      obtain ⟨s1, s2⟩ := carried_shape hfr hc
      have hcol : hexColumns f.showpoint lead 0 (hexExponent T bits) (some p) = hexColumns f.showpoint lead frac (hexExponent T bits) (some p) := by
        unfold hexColumns
        rw [hexText_length, hexText_length, s1, s2]
      have hlen : (hexText lc (enc point) f.showpoint lead 0 (hexExponent T bits) (some p)).length =
          (hexText lc (enc point) f.showpoint lead frac (hexExponent T bits) (some p)).length := by
        rw [hexText_length, hexText_length, s1, s2]
      rw [h0]
      refine ⟨iff_of_false ?_ (fun h => h p rfl hc), ?_, ?_⟩
      · unfold hexFormatted arranged
        dsimp only
        rw [hpr, hcol]
        intro h
        have h := List.append_cancel_right h
        have h := List.append_cancel_left h
        unfold hexText at h
        rw [s1, s2] at h
        dsimp only at h
        rw [Nat.mul_div_cancel _ (Nat.pow_pos (by decide)), Nat.mul_div_cancel _ (Nat.pow_pos (by decide))] at h
        have h := (List.cons.inj h).1
        have : lead = 0 ∨ lead = 1 := by omega
        rcases this with h' | h' <;> rw [h'] at h <;> revert h <;> cases lc <;> decide
      · unfold hexWidth; rw [hpr, hcol]
      · unfold hexFormatted arranged
        dsimp only
        rw [hpr, hcol]
        simp only [List.length_append, hlen]
    · have : frac' = frac := by show keptFrac _ _ _ = _; rw [hpr]; simp only [keptFrac]; rw [if_neg hc]
      rw [this]
      exact ⟨iff_of_true rfl (fun q h => by injection h with h; exact h ▸ hc), rfl, rfl⟩

/-- 0x1.ffffp+0 with one digit carries, with four it does not; the least that carries with one digit is 0x1.f8p+0; 0x0.8p-1022 with no digit is a tie that stays -/
example : Carries 1 0xFFFF000000000 1 ∧ ¬ Carries 1 0xFFFF000000000 4 ∧ Carries 1 0xF800000000000 1 ∧ ¬ Carries 1 0xF7FFFFFFFFFFF 1 ∧
    ¬ Carries 0 0x8000000000000 0 ∧ Carries 1 0x8000000000000 0 := by decide +kernel

end Strf.Float

namespace Strf.Dragonbox
open Strf.Float Strf.Dragonbox.Spec
open Strf.IntDigits.Spec (Lettercase)
open Strf.IntPrinter (AlignFmt LayoutOf)
open Strf.IntPrinter.Spec (Showsign Layout)
open Strf.Print
open Strf.Dest (Dest Lawful Prints)
open Strf.Float.Spec (readHexNumber)

variable {σ : Type} {D : Dest Nat σ} {Rep : σ → List Nat → Prop} {C : Charset σ}

/-- what a text with a fractional part of zero is read as -/
theorem hexFormatted_zero_reads (HC : C.Lawful D Rep) (T : FloatT) (bits : Nat) (lc : Lettercase) (f : FloatFmt)
    (hsign : f.sign ≠ .fillInstead) (lay : Layout) (hno : lay.columns ≤ 0) :
    readHexNumber (hexFormatted C.encodeChar lc 0x2E f lay (signBit T bits) (hexLead T bits) 0 (hexExponent T bits)) =
      some (signBit T bits, (hexLead T bits : ℚ) * 2 ^ hexExponent T bits) := by
  have hc : HexCarryOk (hexLead T bits) 0 (precision f.precision) := by
    unfold HexCarryOk
    rw [zero_hexShape]
    exact Nat.mul_div_cancel _ (Nat.pow_pos (by decide))
  have hv : hexShown (hexLead T bits) 0 (hexExponent T bits) (precision f.precision) = (hexLead T bits : ℚ) * 2 ^ hexExponent T bits := by
    unfold hexShown
    rw [zero_hexShape]
    dsimp only
    push_cast
    rw [mul_div_cancel_right₀ _ (by positivity)]
  rw [← hv]
  unfold hexFormatted Float.Spec.arranged
  dsimp only
  have hn : ∀ c : Nat, (lay.columns - (c : Int)).toNat = 0 := by intro c; omega
  rw [hn, HC.ascii 0x2E (by decide)]
  have hb : IntPrinter.Spec.before lay.align 0 = 0 := by cases lay.align <;> rfl
  have ht : IntPrinter.Spec.times C.encodeChar 0 lay.fill = [] := rfl
  rw [hb, ht, List.append_nil, List.nil_append]
  have hlead : Float.Spec.leader C.encodeChar f.sign lay.fill (signBit T bits) =
      if signBit T bits then [0x2D] else if decide (f.sign = .positiveAlso) then [0x2B] else [] := by
    unfold Float.Spec.leader
    cases signBit T bits
    · cases hs : f.sign with
      | negativeOnly => rfl
      | positiveAlso => rfl
      | fillInstead => exact absurd hs hsign
    · rfl
  rw [hlead]
  exact readHexNumber_text lc f.showpoint _ _ _ _ _ _ _ (hexLead_le T bits) hc

/-- C81: with a precision of less than 13 digits: what is printed is read as a number that is not further from the number than half a unit of the last digit, if
and only if rounding does not carry, or is a tie with no digits at all. -/
theorem hex_rounded_iff (L : Lawful D Rep) (HC : C.Lawful D Rep) (T : FloatT) (bits : Nat) (hfin : Finite T bits)
    (lc : Lettercase) (f : FloatFmt) (hf : FmtOk f) (hhex : f.nota = .hex) (n : Nat) (hp : f.precision = n) (hn : n < 13)
    (hsign : f.sign ≠ .fillInstead) (a : AlignFmt) (lay : Layout) (hl : LayoutOf a lay) (hno : lay.columns ≤ 0)
    (unitBits : Nat) :
    ∃ p pre txt q, Printer.makePlain C toDecimal lc T bits f a = some (p, pre) ∧ Prints τ D Rep (p.print D C unitBits) txt ∧
      readHexNumber txt = some (signBit T bits, q) ∧
      (|q - value T.mSize T.eSize (expBits T bits) (manBits T bits)| ≤ 1 / 2 * (1 / 16 ^ n) * 2 ^ hexExponent T bits ↔
        ¬ Carries (hexLead T bits) (hexFrac T bits) n ∨ (n = 0 ∧ 2 * hexFrac T bits = 16 ^ 13)) := by
  have hprec : precision f.precision = some n := by
    unfold precision
    rw [if_neg (by omega), hp, Int.toNat_natCast]
  have hfr : hexFrac T bits < 16 ^ 13 := by have := hexFrac_lt T bits; simpa using this
  obtain ⟨⟨p, pre, h1, h2, -, -⟩, -⟩ := hex_all L HC toDecimal T bits hfin lc f hf hhex a lay hl unitBits
  by_cases hc : Carries (hexLead T bits) (hexFrac T bits) n
  · have hk : keptFrac (hexLead T bits) (hexFrac T bits) (precision f.precision) = 0 := by rw [hprec]; simp [keptFrac, hc]
    rw [hk] at h2
    refine ⟨p, pre, _, _, h1, h2, hexFormatted_zero_reads HC T bits lc f hsign lay hno, ?_⟩
    rw [← hex_fields_value]
    have hx : (0 : ℚ) < 2 ^ hexExponent T bits := by positivity
    generalize (2 : ℚ) ^ hexExponent T bits = X at hx
    rw [← sub_mul, abs_mul, abs_of_pos hx, mul_le_mul_iff_left₀ hx]
    have e : (hexLead T bits : ℚ) - (hexLead T bits + (hexFrac T bits : ℚ) / 2 ^ 52) = - ((hexFrac T bits : ℚ) / 2 ^ 52) := by ring
    rw [e, abs_neg, abs_of_nonneg (by positivity)]
    have hP : (16 : ℚ) ^ n * 16 ^ (13 - n) = 2 ^ 52 := by rw [← pow_add, show n + (13 - n) = 13 by omega]; norm_num
    have hq : (0 : ℚ) < 16 ^ n := by positivity
    have e2 : (1 / 2 * (1 / 16 ^ n) : ℚ) = (16 ^ (13 - n) / 2) / 2 ^ 52 := by rw [← hP]; field_simp
    rw [e2, div_le_div_iff_of_pos_right (by positivity)]
    have hc2 := hc.2
    have hn2 : 16 ^ (13 - n) ≤ 16 ^ 13 := Nat.pow_le_pow_right (by decide) (by omega)
    have cast : (hexFrac T bits : ℚ) ≤ 16 ^ (13 - n) / 2 ↔ 2 * hexFrac T bits ≤ 16 ^ (13 - n) := by
      rw [le_div_iff₀ (by norm_num)]
      constructor
      · intro h
        have : ((hexFrac T bits * 2 : Nat) : ℚ) ≤ ((16 ^ (13 - n) : Nat) : ℚ) := by push_cast; exact h
        have := Nat.cast_le.mp this
        omega
      · intro h
        have : ((hexFrac T bits * 2 : Nat) : ℚ) ≤ ((16 ^ (13 - n) : Nat) : ℚ) := Nat.cast_le.mpr (by omega)
        push_cast at this
        exact this
    rw [cast]
    have hz : n = 0 → 16 ^ (13 - n) = 16 ^ 13 := by rintro rfl; rfl
    have hnz : n ≠ 0 → 16 ^ (13 - n) ≤ 16 ^ 12 := fun h => Nat.pow_le_pow_right (by decide) (by omega)
    have hc' : ¬ Carries (hexLead T bits) (hexFrac T bits) n ↔ False := iff_of_false (not_not.mpr hc) id
    rw [hc', false_or]
    clear hc hc' cast e2 hP h1 h2 hk
    generalize 16 ^ (13 - n) = P at *
    have h12 : (16 : Nat) ^ 12 = 281474976710656 := by norm_num
    have h13 : (16 : Nat) ^ 13 = 4503599627370496 := by norm_num
    rw [h13] at *
    rw [h12] at hnz
    by_cases h0 : n = 0
    · have := hz h0; omega
    · have := hnz h0; omega
  · have hk : keptFrac (hexLead T bits) (hexFrac T bits) (precision f.precision) = hexFrac T bits := by rw [hprec]; simp [keptFrac, hc]
    rw [hk] at h2
    have hcc : HexCarryOk (hexLead T bits) (hexFrac T bits) (precision f.precision) := by rw [hprec]; exact (carry_ok_iff hfr).mpr hc
    refine ⟨p, pre, _, _, h1, h2, hexFormatted_reads HC T bits lc f hsign lay hno hcc, iff_of_true ?_ (.inl hc)⟩
    rw [hprec, ← hex_fields_value]
    exact hexShown_near _ _ _ _ hn

end Strf.Dragonbox

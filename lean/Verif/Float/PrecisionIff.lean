import Verif.Float.PrecisionSharp
/-!
# C58, C61: which numbers are printed and premeasured as they must be

`fixed_text_iff`, `fixed_width_iff`, `general_text_iff`, `general_width_iff`, `general_size_iff`: for numbers that are not padded,
exactly when the text, the width and the size are right. `plain_of_punct` gives the same for formats without punctuation.
-/
namespace Strf.Float
open Strf.Float.Spec hiding Notation
open Strf.IntDigits Strf.IntDigits.Spec Strf.Numpunct Strf.Numpunct.Spec Strf.Print
open Strf.IntPrinter (b2n b2i AlignFmt LayoutOf)
open Strf.IntPrinter.Spec (Showsign Align Layout before times)
open Strf.Dest (Dest Lawful Prints)
open Strf.Dragonbox (toDecimal)

variable {σ : Type} {D : Dest Nat σ} {Rep : σ → List Nat → Prop} {C : Charset σ}

/-- A printer without punctuation is a printer with punctuation whose format does not ask for it. -/
theorem plain_of_punct (HC : C.Lawful D Rep) (toDec : ToDecimal) (lc : Lettercase) (np10 np16 : Numpunct.Facet) (T : FloatT) (bits : Nat)
    (f : FloatFmt) (hpu : f.punctuate = false) (a : AlignFmt) :
    Printer.makePunct C toDec lc np10 np16 T bits f a = Printer.makePlain C toDec lc T bits f a := by
  unfold Printer.makePunct Printer.makePlain
  have hpt : C.charSize 0x2E = 1 := by rw [HC.size, HC.ascii _ (by decide)]; rfl
  simp only [hpu, Bool.false_eq_true, if_false]
  congr 1
  funext r
  have h1 : (if r.1.showpoint = true then C.charSize 0x2E else 0) = b2n r.1.showpoint := by
    rw [hpt]; cases r.1.showpoint <;> rfl
  have h2 : (if r.1.showpoint = true then ((b2n r.1.showpoint : Nat) : Int) - 1 else 0) = 0 := by
    cases r.1.showpoint <;> rfl
  have h3 : (if f.nota ≠ .hex ∧ r.1.sep ≠ 0 then r.1.sep * (((1 : Nat) : Int) - 1) else 0) = 0 := by
    split_ifs <;> simp
  rw [h1, h2, h3, Int.add_zero, Int.add_zero]

theorem usedGroups_plain (C : Charset σ) (np : Numpunct.Facet) (f : FloatFmt) (gs : List Nat) (rep : Bool) (hpu : f.punctuate = false) :
    usedGroups C np f gs rep = ([], false) := by unfold usedGroups; rw [if_neg (by rw [hpu]; simp)]

/-! ### text that is not padded -/

theorem arranged_bare (enc : Nat → List Nat) (sign : Showsign) {pad0 : Int} {lay : Layout} (neg : Bool) (txt : List Nat) (cols : Nat)
    (hpad : pad0 ≤ 0) (hcol : lay.columns ≤ 0) : arranged enc sign pad0 lay neg [] txt cols = leader enc sign lay.fill neg ++ txt := by
  unfold arranged
  dsimp only
  rw [show (pad0 - ((leaderColumns sign neg + [].length + cols : Nat) : Int)).toNat = 0 by omega,
    show ∀ n : Nat, (lay.columns - (n : Int)).toNat = 0 by intro n; omega]
  have hb : before lay.align 0 = 0 := by cases lay.align <;> rfl
  rw [hb]
  simp [times]

theorem arrangedWidth_bare (sign : Showsign) {pad0 : Int} {lay : Layout} (neg : Bool) (cols : Nat)
    (hpad : pad0 ≤ 0) (hcol : lay.columns ≤ 0) : arrangedWidth sign pad0 lay neg [] cols = leaderColumns sign neg + cols := by
  unfold arrangedWidth
  simp only [List.length_nil]
  omega

theorem strip_high (f : Nat) : ∀ v, (strip v f).1 / 10 ^ (strip v f).2 = v / 10 ^ f := by
  induction f with
  | zero => intro v; simp [strip]
  | succ f ih =>
    intro v
    rw [strip]
    split_ifs with h
    · rw [ih, Nat.div_div_eq_div_mul, pow_succ, Nat.mul_comm]
    · rfl

theorem strip_le (f : Nat) : ∀ v, (strip v f).2 ≤ f := by
  induction f with
  | zero => intro v; simp [strip]
  | succ f ih =>
    intro v
    rw [strip]
    split_ifs with h
    · exact Nat.le_succ_of_le (ih _)
    · exact Nat.le_refl _

theorem strip_same (f v : Nat) : (strip v f).2 = f ↔ (v % 10 = 0 → f = 0) := by
  cases f with
  | zero => simp [strip]
  | succ f =>
    rw [strip]
    split_ifs with h
    · have := strip_le f (v / 10)
      exact ⟨fun h' => absurd h' (by omega), fun h' => by have h2 := h' h; simp at h2⟩
    · simp [h]

theorem number_len (lc : Lettercase) (point sep gs : List Nat) (rep alt : Bool) (v frac : Nat) (x : Option Int) :
    (number lc point sep gs rep alt ⟨v, frac, x⟩).length = (numeral 10 (v / 10 ^ frac)).length +
      (match x with | none => ((split gs rep (numeral 10 (v / 10 ^ frac)).length).length - 1) * sep.length | some x => (expText lc x).length) +
      (if alt = true ∨ 0 < frac then point.length else 0) + frac := by
  unfold number
  cases x with
  | none => dsimp only; rw [body_length]
  | some x =>
    dsimp only
    rw [List.length_append, body_length, split_nil_length]
    simp only [List.length_nil, Nat.mul_zero]
    omega

/-- the number with and without its zeros at the end -/
theorem number_strip_length (lc : Lettercase) (point sep gs : List Nat) (rep : Bool) (v frac : Nat) (x : Option Int) :
    (number lc point sep gs rep true ⟨(strip v frac).1, (strip v frac).2, x⟩).length + (frac - (strip v frac).2) =
      (number lc point sep gs rep true ⟨v, frac, x⟩).length := by
  rw [number_len, number_len, strip_high]
  have := strip_le frac v
  simp only [true_or, if_true]
  omega

/-! ### the fixed notation -/

/-- the digits before the point, rounded, have as many groups as not rounded -/
theorem carry_fixed_iff (gs : List Nat) (rep alt : Bool) (sign : Showsign) (neg : Bool) (p m : Nat) (e : Int) :
    CarryOk gs rep .fixed (some p) alt sign neg m e ↔ groupsAfter gs rep p m e = groupsBefore gs rep m e := Iff.rfl

/-- C58: the text in the fixed notation with precision, not padded, is right exactly if the number not rounded has a separator or the
number rounded has none. -/
theorem fixed_text_iff (L : Lawful D Rep) (HC : C.Lawful D Rep) (T : FloatT) (bits : Nat) (hfin : Finite T bits)
    (lc : Lettercase) (np10 np16 : Numpunct.Facet)
    {gs : List Nat} {rep : Bool} (hg : Valid gs rep) (hgr : np10.grouping = ctor2 (args gs rep))
    (f : FloatFmt) (hf : FmtOk f) (hfix : f.nota = .fixed) (hprec : f.precision ≠ -1) (a : AlignFmt) (lay : Layout)
    (hl : LayoutOf a lay) (hcol : lay.columns ≤ 0) (hpad : f.pad0 ≤ 0)
    (unitBits : Nat) (hcast : f.punctuate = true → CastOk C unitBits np10.thousandsSep) :
    let m := (decode toDecimal T bits).m10
    let e := (decode toDecimal T bits).e10
    let G := usedGroups C np10 f gs rep
    ∃ p pre txt, Printer.makePunct C toDecimal lc np10 np16 T bits f a = some (p, pre) ∧
      Prints τ D Rep (p.print D C unitBits) txt ∧
      (txt = finite C.encodeChar lc (usedPoint np10 f) (usedSep np10 f) G.1 G.2 f lay (signBit T bits) m e ↔
        (groupsBefore G.1 G.2 m e ≠ 1 ∨ groupsAfter G.1 G.2 f.precision.toNat m e = 1)) := by
  intro m e G
  have hvalid := usedGroups_valid C np10 f hg
  have hpr : precision f.precision = some f.precision.toNat := by unfold precision; rw [if_neg hprec]
  obtain ⟨p, pre, h1, h2, h3, h4⟩ := fixed_all (τ := τ) L HC T bits hfin lc np10 np16 hg hgr f hf hfix hprec a lay hl unitBits hcast
  refine ⟨p, pre, _, h1, h2, ?_⟩
  have hsh : shape G.1 G.2 .fixed (precision f.precision) f.showpoint m e =
      ⟨roundAt m e (-(f.precision.toNat : Int)), f.precision.toNat, none⟩ := by rw [hpr]; rfl
  unfold finite
  dsimp only
  rw [arranged_bare _ _ _ _ _ hpad hcol, arranged_bare _ _ _ _ _ hpad hcol, hfix, List.append_cancel_left_eq]
  show number _ _ _ (groupsPrinted G.1 G.2 m e).1 (groupsPrinted G.1 G.2 m e).2 _ (shape G.1 G.2 .fixed (precision f.precision) f.showpoint m e) =
    number _ _ _ G.1 G.2 _ (shape G.1 G.2 .fixed (precision f.precision) f.showpoint m e) ↔ _
  rw [hsh]
  have hn1 : 1 ≤ groupsAfter G.1 G.2 f.precision.toNat m e := split_length_pos _ _ hvalid _ (len_pos10 _)
  have hsl := (HC.short (usedSep np10 f)).1
  unfold groupsPrinted
  by_cases h0 : groupsBefore G.1 G.2 m e = 1
  · rw [if_pos h0]
    constructor
    · intro h
      right
      have h5 := congrArg List.length h
      rw [number_len, number_len] at h5
      dsimp only at h5
      rw [split_nil_length] at h5
      have h6 : (groupsAfter G.1 G.2 f.precision.toNat m e - 1) * (C.encodeChar (usedSep np10 f)).length = 0 := by
        show ((split G.1 G.2 (numeral 10 (roundAt m e (-(f.precision.toNat : Int)) / 10 ^ f.precision.toNat)).length).length - 1) * _ = 0
        simp only [Nat.sub_self, Nat.zero_mul] at h5
        omega
      rcases Nat.mul_eq_zero.mp h6 with h7 | h7 <;> omega
    · intro h
      have h5 : (split G.1 G.2 (numeral 10 (roundAt m e (-(f.precision.toNat : Int)) / 10 ^ f.precision.toNat)).length).length = 1 :=
        h.resolve_left (fun h => h h0)
      unfold number
      dsimp only
      rw [body_eq, body_eq, grouped_plain [] _ false _ _ (by simp [text_length]) (by rw [split_nil_length]),
        grouped_plain G.1 _ G.2 _ _ (by simp [text_length]) (by omega)]
  · rw [if_neg h0]
    exact ⟨fun _ => .inl h0, fun _ => rfl⟩

/-- C61: the width in the fixed notation with precision, not padded, is right exactly if the number has as many groups of digits
rounded as not rounded. -/
theorem fixed_width_iff (L : Lawful D Rep) (HC : C.Lawful D Rep) (T : FloatT) (bits : Nat) (hfin : Finite T bits)
    (lc : Lettercase) (np10 np16 : Numpunct.Facet)
    {gs : List Nat} {rep : Bool} (hg : Valid gs rep) (hgr : np10.grouping = ctor2 (args gs rep))
    (f : FloatFmt) (hf : FmtOk f) (hfix : f.nota = .fixed) (hprec : f.precision ≠ -1) (a : AlignFmt) (lay : Layout)
    (hl : LayoutOf a lay) (hcol : lay.columns ≤ 0) (hpad : f.pad0 ≤ 0)
    (unitBits : Nat) (hcast : f.punctuate = true → CastOk C unitBits np10.thousandsSep) :
    let m := (decode toDecimal T bits).m10
    let e := (decode toDecimal T bits).e10
    let G := usedGroups C np10 f gs rep
    ∃ p pre, Printer.makePunct C toDecimal lc np10 np16 T bits f a = some (p, pre) ∧
      (pre.width = finiteWidth G.1 G.2 f lay (signBit T bits) m e ↔
        groupsAfter G.1 G.2 f.precision.toNat m e = groupsBefore G.1 G.2 m e) := by
  intro m e G
  have hvalid := usedGroups_valid C np10 f hg
  have hpr : precision f.precision = some f.precision.toNat := by unfold precision; rw [if_neg hprec]
  obtain ⟨p, pre, h1, h2, h3, h4⟩ := fixed_all (τ := Bool.true) L HC T bits hfin lc np10 np16 hg hgr f hf hfix hprec a lay hl unitBits hcast
  refine ⟨p, pre, h1, ?_⟩
  have hsh : shape G.1 G.2 .fixed (precision f.precision) f.showpoint m e =
      ⟨roundAt m e (-(f.precision.toNat : Int)), f.precision.toNat, none⟩ := by rw [hpr]; rfl
  rw [h3]
  unfold finiteWidth
  rw [arrangedWidth_bare _ _ _ hpad hcol, arrangedWidth_bare _ _ _ hpad hcol, hfix]
  show _ ↔ _
  have hn1 : 1 ≤ groupsAfter G.1 G.2 f.precision.toNat m e := split_length_pos _ _ hvalid _ (len_pos10 _)
  have hl0 : 1 ≤ (max 1 (((numeral 10 m).length : Int) + e)).toNat := by
    have := Int.toNat_le_toNat (Int.le_max_left 1 (((numeral 10 m).length : Int) + e)); exact this
  have hn0 : 1 ≤ groupsBefore G.1 G.2 m e := split_length_pos _ _ hvalid _ hl0
  have hc : columns G.1 G.2 f.showpoint (shape G.1 G.2 .fixed (precision f.precision) f.showpoint m e) =
      columns [] false f.showpoint (shape G.1 G.2 .fixed (precision f.precision) f.showpoint m e) +
        (groupsAfter G.1 G.2 f.precision.toNat m e - 1) := by
    rw [hsh]; exact columns_groups _ _ _ _ _
  show ((leaderColumns f.sign (signBit T bits) + (columns [] false f.showpoint (shape G.1 G.2 .fixed (precision f.precision) f.showpoint m e) +
      (groupsBefore G.1 G.2 m e - 1)) : Nat) : Int) = ((leaderColumns f.sign (signBit T bits) +
        columns G.1 G.2 f.showpoint (shape G.1 G.2 .fixed (precision f.precision) f.showpoint m e) : Nat) : Int) ↔ _
  rw [hc]
  generalize columns [] false f.showpoint (shape G.1 G.2 .fixed (precision f.precision) f.showpoint m e) = c
  omega

/-! ### the general notation -/

/-- whether the zeros at the end of a number of `P` digits, which are asked for, are left out: digits are removed, rounding does not
carry, and there is a zero after the point at the end -/
def ZerosLost (alt : Bool) (P m : Nat) (e : Int) : Prop :=
  alt = true ∧ P < (numeral 10 m).length ∧ (significant P m e).2 = sciExp m e ∧ (significant P m e).1 % 10 = 0 ∧
    (if sciExp m e < -4 ∨ (P : Int) ≤ sciExp m e then P - 1 else ((P : Int) - 1 - sciExp m e).toNat) ≠ 0

theorem significant_exp (P m : Nat) (e : Int) : (significant P m e).2 = sciExp m e ∨ (significant P m e).2 = sciExp m e + 1 := by
  unfold significant
  dsimp only
  split_ifs
  · right; rfl
  · left; rfl

/-- the sign is not counted -/
def SignMissed (sign : Showsign) (neg : Bool) (P m : Nat) (e : Int) : Prop :=
  (significant P m e).2 ≠ sciExp m e ∧ ¬ (sciExp m e + 1 < -4 ∨ (P : Int) ≤ sciExp m e + 1) ∧ leaderColumns sign neg ≠ 0

/-- separators are counted that are not printed -/
def Ghosts (gs : List Nat) (rep : Bool) (P m : Nat) (e : Int) : Prop :=
  (significant P m e).2 ≠ sciExp m e ∧ sciExp m e + 1 = (P : Int) ∧ (split gs rep P).length ≠ 1

/-- `CarryOk`, in the general notation, in these words -/
theorem carry_general_iff (gs : List Nat) (rep alt : Bool) (sign : Showsign) (neg : Bool) (p m : Nat) (e : Int) :
    CarryOk gs rep .general (some p) alt sign neg m e ↔
      ¬ Ghosts gs rep (max p 1) m e ∧ ¬ SignMissed sign neg (max p 1) m e ∧ ¬ ZerosLost alt (max p 1) m e := by
  unfold CarryOk Ghosts SignMissed ZerosLost
  dsimp only
  generalize max p 1 = P
  constructor
  · rintro ⟨h1, h2⟩
    refine ⟨?_, ?_, ?_⟩
    · rintro ⟨h3, h4, h5⟩; exact h5 ((h1 h3).1 (by omega) (by omega))
    · rintro ⟨h3, h4, h5⟩; exact h5 ((h1 h3).2 h4)
    · rintro ⟨h3, h4, h5, h6, h7⟩; exact h7 (h2 h3 h4 h5 h6)
  · rintro ⟨h1, h2, h3⟩
    refine ⟨fun h4 => ⟨fun h5 h6 => ?_, fun h5 => ?_⟩, fun h4 h5 h6 h7 => ?_⟩
    · by_contra h7; exact h1 ⟨h4, by omega, h7⟩
    · by_contra h7; exact h2 ⟨h4, h5, h7⟩
    · by_contra h8; exact h3 ⟨h4, h5, h6, h7, h8⟩

/-- the number with and without the zeros that are left out -/
theorem general_number (gs : List Nat) (rep alt : Bool) (p m : Nat) (e : Int) :
    ∃ k, (k = 0 ↔ ¬ ZerosLost alt (max p 1) m e) ∧ ∀ (lc : Lettercase) (point sep : List Nat),
      let A := number lc point sep gs rep alt (shape gs rep .general (some p)
        (alt && !(decide (max p 1 < (numeral 10 m).length) && decide ((significant (max p 1) m e).2 = sciExp m e))) m e)
      let B := number lc point sep gs rep alt (shape gs rep .general (some p) alt m e)
      A.length + k = B.length ∧ (k = 0 → A = B) := by
  simp only [shape_general]
  generalize max p 1 = P
  by_cases h : alt = true ∧ P < (numeral 10 m).length ∧ (significant P m e).2 = sciExp m e
  · obtain ⟨rfl, h1, h2⟩ := h
    unfold genShape ZerosLost
    simp only [h1, h2, decide_true, Bool.and_true, Bool.not_true, Bool.and_false, Bool.false_eq_true, if_false, if_true, true_and]
    generalize (if sciExp m e < -4 ∨ (P : Int) ≤ sciExp m e then P - 1 else ((P : Int) - 1 - sciExp m e).toNat) = frac
    have h3 := strip_le frac (significant P m e).1
    have h4 := strip_same frac (significant P m e).1
    refine ⟨frac - (strip (significant P m e).1 frac).2, ?_, fun lc point sep => ⟨number_strip_length _ _ _ _ _ _ _ _, fun hk => ?_⟩⟩
    · constructor
      · intro h5; rintro ⟨h6, h7⟩; exact h7 (h4.mp (by omega) h6)
      · intro h5
        have h6 := h4.mpr (fun h6 => by by_contra h7; exact h5 ⟨h6, h7⟩)
        omega
    · have h5 := h4.mp (by omega)
      rw [strip_id _ _ (by by_cases h6 : frac = 0
                           · exact .inr h6
                           · exact .inl fun h7 => h6 (h5 h7))]
  · refine ⟨0, ⟨fun _ hz => h ⟨hz.1, hz.2.1, hz.2.2.1⟩, fun _ => rfl⟩, fun lc point sep => ?_⟩
    have h5 : (alt && !(decide (P < (numeral 10 m).length) && decide ((significant P m e).2 = sciExp m e))) = alt := by
      cases alt
      · rfl
      · by_cases h6 : P < (numeral 10 m).length <;> by_cases h7 : (significant P m e).2 = sciExp m e
        · exact absurd ⟨rfl, h6, h7⟩ h
        all_goals simp [h6, h7]
    rw [h5]
    exact ⟨rfl, fun _ => rfl⟩

theorem number_pos (lc : Lettercase) (point sep gs : List Nat) (rep alt : Bool) (sh : Shape) :
    1 ≤ (number lc point sep gs rep alt sh).length := by
  have := len_pos10 (sh.digits / 10 ^ sh.frac)
  obtain ⟨v, frac, x⟩ := sh
  rw [number_len]
  dsimp only at this
  omega

/-- C58, C61: in the general notation with precision, not padded: the text is right exactly if no zeros that were asked for are left
out; the width, if the sign is not missed either; the size, if moreover no separators of more than one code unit are counted that are not
printed. -/
theorem general_iff (L : Lawful D Rep) (HC : C.Lawful D Rep) (T : FloatT) (bits : Nat) (hfin : Finite T bits)
    (lc : Lettercase) (np10 np16 : Numpunct.Facet)
    {gs : List Nat} {rep : Bool} (hg : Valid gs rep) (hgr : np10.grouping = ctor2 (args gs rep))
    (f : FloatFmt) (hf : FmtOk f) (hgen : f.nota = .general) (hprec : f.precision ≠ -1) (a : AlignFmt) (lay : Layout)
    (hl : LayoutOf a lay) (hcol : lay.columns ≤ 0) (hpad : f.pad0 ≤ 0)
    (unitBits : Nat) (hcast : f.punctuate = true → CastOk C unitBits np10.thousandsSep) :
    let m := (decode toDecimal T bits).m10
    let e := (decode toDecimal T bits).e10
    let G := usedGroups C np10 f gs rep
    let P := max f.precision.toNat 1
    let want := finite C.encodeChar lc (usedPoint np10 f) (usedSep np10 f) G.1 G.2 f lay (signBit T bits) m e
    ∃ p pre txt, Printer.makePunct C toDecimal lc np10 np16 T bits f a = some (p, pre) ∧
      Prints τ D Rep (p.print D C unitBits) txt ∧
      (txt = want ↔ ¬ ZerosLost f.showpoint P m e) ∧
      (pre.width = finiteWidth G.1 G.2 f lay (signBit T bits) m e ↔
        ¬ ZerosLost f.showpoint P m e ∧ ¬ SignMissed f.sign (signBit T bits) P m e) ∧
      (pre.size = want.length ↔
        ¬ ZerosLost f.showpoint P m e ∧ ¬ SignMissed f.sign (signBit T bits) P m e ∧
          (¬ Ghosts G.1 G.2 P m e ∨ (C.encodeChar (usedSep np10 f)).length = 1)) := by
  intro m e G P want
  have hvalid := usedGroups_valid C np10 f hg
  have hpr : precision f.precision = some f.precision.toNat := by unfold precision; rw [if_neg hprec]
  obtain ⟨p, pre, h1, h2, h3, h4⟩ := general_all (τ := τ) L HC T bits hfin lc np10 np16 hg hgr f hf hgen hprec a lay hl unitBits hcast
  refine ⟨p, pre, _, h1, h2, ?_⟩
  rw [arranged_bare _ _ _ _ _ hpad hcol, hpr] at h4
  rw [arrangedWidth_bare _ _ _ hpad hcol, hpr] at h3
  rw [arranged_bare _ _ _ _ _ hpad hcol, hpr]
  have hwant : want = leader C.encodeChar f.sign lay.fill (signBit T bits) ++
      number lc (C.encodeChar (usedPoint np10 f)) (C.encodeChar (usedSep np10 f)) G.1 G.2 f.showpoint
        (shape G.1 G.2 .general (some f.precision.toNat) f.showpoint m e) := by
    show finite _ _ _ _ _ _ _ _ _ _ _ = _
    unfold finite
    dsimp only
    rw [arranged_bare _ _ _ _ _ hpad hcol, hgen, hpr]
    rfl
  have hwidth : finiteWidth G.1 G.2 f lay (signBit T bits) m e = leaderColumns f.sign (signBit T bits) +
      columns G.1 G.2 f.showpoint (shape G.1 G.2 .general (some f.precision.toNat) f.showpoint m e) := by
    unfold finiteWidth
    rw [arrangedWidth_bare _ _ _ hpad hcol, hgen, hpr]
    rfl
  obtain ⟨k, hk, hnum⟩ := general_number G.1 G.2 f.showpoint f.precision.toNat m e
  obtain ⟨hA, hB⟩ := hnum lc (C.encodeChar (usedPoint np10 f)) (C.encodeChar (usedSep np10 f))
  obtain ⟨hA1, hB1⟩ := hnum .lower [0x2E] [0x2C]
  rw [hwidth, hwant]
  have hc1 := columns_pos G.1 G.2 f.showpoint (shape G.1 G.2 .general (some f.precision.toNat)
    (f.showpoint && !(decide (P < (numeral 10 m).length) && decide ((significant P m e).2 = sciExp m e))) m e)
  have hsl := (HC.short (usedSep np10 f)).1
  have hsplit : 1 ≤ (split G.1 G.2 P).length := split_length_pos _ _ hvalid _ (by show 1 ≤ max _ 1; omega)
  have hlead := leaderColumns_le f.sign (signBit T bits)
  have hx := significant_exp P m e
  have hM : ((if (significant P m e).2 ≠ sciExp m e ∧ ¬ ((significant P m e).2 < -4 ∨ (P : Int) ≤ (significant P m e).2)
      then leaderColumns f.sign (signBit T bits) else 0) = 0) ↔ ¬ SignMissed f.sign (signBit T bits) P m e := by
    unfold SignMissed
    rcases hx with hx | hx
    · rw [if_neg (fun h => h.1 hx)]
      exact ⟨fun _ h => h.1 hx, fun _ => rfl⟩
    · rw [hx]
      by_cases hc : sciExp m e + 1 < -4 ∨ (P : Int) ≤ sciExp m e + 1
      · rw [if_neg (fun h => h.2 hc)]
        exact ⟨fun _ h => h.2.1 hc, fun _ => rfl⟩
      · rw [if_pos ⟨by omega, hc⟩]
        exact ⟨fun h h' => h'.2.2 h, fun h => by by_contra h'; exact h ⟨by omega, hc, h'⟩⟩
  have hM1 : (if (significant P m e).2 ≠ sciExp m e ∧ ¬ ((significant P m e).2 < -4 ∨ (P : Int) ≤ (significant P m e).2)
      then leaderColumns f.sign (signBit T bits) else 0) ≤ 1 := by split_ifs <;> omega
  have hN : ((if (significant P m e).2 ≠ sciExp m e ∧ sciExp m e + 1 = (P : Int) then (split G.1 G.2 P).length - 1 else 0) = 0) ↔
      ¬ Ghosts G.1 G.2 P m e := by
    unfold Ghosts
    by_cases h5 : (significant P m e).2 ≠ sciExp m e ∧ sciExp m e + 1 = (P : Int)
    · rw [if_pos h5]
      exact ⟨fun h h' => h'.2.2 (by omega), fun h => by by_contra h'; exact h ⟨h5.1, h5.2, by omega⟩⟩
    · rw [if_neg h5]
      exact ⟨fun _ h => h5 ⟨h.1, h.2.1⟩, fun _ => rfl⟩
  have x1 : SignMissed f.sign (signBit T bits) P m e → ¬ Ghosts G.1 G.2 P m e := fun h h' => h.2.1 (.inr (by have := h'.2.1; omega))
  have x2 : ZerosLost f.showpoint P m e → ¬ SignMissed f.sign (signBit T bits) P m e := fun h h' => h'.1 h.2.2.1
  have x3 : ZerosLost f.showpoint P m e → ¬ Ghosts G.1 G.2 P m e := fun h h' => h'.1 h.2.2.1
  have hwd : pre.width = ((leaderColumns f.sign (signBit T bits) + (columns G.1 G.2 f.showpoint (shape G.1 G.2 .general (some f.precision.toNat)
      (f.showpoint && !(decide (P < (numeral 10 m).length) && decide ((significant P m e).2 = sciExp m e))) m e) -
      (if (significant P m e).2 ≠ sciExp m e ∧ ¬ ((significant P m e).2 < -4 ∨ (P : Int) ≤ (significant P m e).2)
        then leaderColumns f.sign (signBit T bits) else 0)) : Nat) : Int) := h3
  have hsz : pre.size = ((((leader C.encodeChar f.sign lay.fill (signBit T bits) ++
      number lc (C.encodeChar (usedPoint np10 f)) (C.encodeChar (usedSep np10 f)) G.1 G.2 f.showpoint
        (shape G.1 G.2 .general (some f.precision.toNat)
          (f.showpoint && !(decide (P < (numeral 10 m).length) && decide ((significant P m e).2 = sciExp m e))) m e)).length : Nat) : Int) -
      ((if (significant P m e).2 ≠ sciExp m e ∧ ¬ ((significant P m e).2 < -4 ∨ (P : Int) ≤ (significant P m e).2)
        then leaderColumns f.sign (signBit T bits) else 0 : Nat) : Int) +
      ((if (significant P m e).2 ≠ sciExp m e ∧ sciExp m e + 1 = (P : Int) then (split G.1 G.2 P).length - 1 else 0 : Nat) : Int) *
        (((C.encodeChar (usedSep np10 f)).length : Int) - 1)).toNat := h4
  have hcA : columns G.1 G.2 f.showpoint (shape G.1 G.2 .general (some f.precision.toNat)
        (f.showpoint && !(decide (P < (numeral 10 m).length) && decide ((significant P m e).2 = sciExp m e))) m e) + k =
      columns G.1 G.2 f.showpoint (shape G.1 G.2 .general (some f.precision.toNat) f.showpoint m e) := hA1
  have hA' : (number lc (C.encodeChar (usedPoint np10 f)) (C.encodeChar (usedSep np10 f)) G.1 G.2 f.showpoint
        (shape G.1 G.2 .general (some f.precision.toNat)
          (f.showpoint && !(decide (P < (numeral 10 m).length) && decide ((significant P m e).2 = sciExp m e))) m e)).length + k =
      (number lc (C.encodeChar (usedPoint np10 f)) (C.encodeChar (usedSep np10 f)) G.1 G.2 f.showpoint
        (shape G.1 G.2 .general (some f.precision.toNat) f.showpoint m e)).length := hA
  have hB' : k = 0 → number lc (C.encodeChar (usedPoint np10 f)) (C.encodeChar (usedSep np10 f)) G.1 G.2 f.showpoint
        (shape G.1 G.2 .general (some f.precision.toNat)
          (f.showpoint && !(decide (P < (numeral 10 m).length) && decide ((significant P m e).2 = sciExp m e))) m e) =
      number lc (C.encodeChar (usedPoint np10 f)) (C.encodeChar (usedSep np10 f)) G.1 G.2 f.showpoint
        (shape G.1 G.2 .general (some f.precision.toNat) f.showpoint m e) := hB
  show ((leader C.encodeChar f.sign lay.fill (signBit T bits) ++ number lc (C.encodeChar (usedPoint np10 f)) (C.encodeChar (usedSep np10 f)) G.1 G.2 f.showpoint
        (shape G.1 G.2 .general (some f.precision.toNat)
          (f.showpoint && !(decide (P < (numeral 10 m).length) && decide ((significant P m e).2 = sciExp m e))) m e)) = _ ↔ _) ∧ _
  have hk' : (k = 0 ↔ ¬ ZerosLost f.showpoint P m e) := hk
  rw [hwd, hsz, List.append_cancel_left_eq, List.length_append, List.length_append]
  generalize (if (significant P m e).2 ≠ sciExp m e ∧ ¬ ((significant P m e).2 < -4 ∨ (P : Int) ≤ (significant P m e).2)
        then leaderColumns f.sign (signBit T bits) else 0 : Nat) = M at hM hM1 ⊢
  generalize (if (significant P m e).2 ≠ sciExp m e ∧ sciExp m e + 1 = (P : Int) then (split G.1 G.2 P).length - 1 else 0 : Nat) = N at hN ⊢
  have hc1' : 1 ≤ columns G.1 G.2 f.showpoint (shape G.1 G.2 .general (some f.precision.toNat)
    (f.showpoint && !(decide (P < (numeral 10 m).length) && decide ((significant P m e).2 = sciExp m e))) m e) := hc1
  generalize columns G.1 G.2 f.showpoint (shape G.1 G.2 .general (some f.precision.toNat)
    (f.showpoint && !(decide (P < (numeral 10 m).length) && decide ((significant P m e).2 = sciExp m e))) m e) = cA at hc1' hcA ⊢
  have hA2 : 1 ≤ (number lc (C.encodeChar (usedPoint np10 f)) (C.encodeChar (usedSep np10 f)) G.1 G.2 f.showpoint
        (shape G.1 G.2 .general (some f.precision.toNat)
          (f.showpoint && !(decide (P < (numeral 10 m).length) && decide ((significant P m e).2 = sciExp m e))) m e)).length := by
    have := number_pos lc (C.encodeChar (usedPoint np10 f)) (C.encodeChar (usedSep np10 f)) G.1 G.2 f.showpoint
        (shape G.1 G.2 .general (some f.precision.toNat)
          (f.showpoint && !(decide (P < (numeral 10 m).length) && decide ((significant P m e).2 = sciExp m e))) m e)
    exact this
  generalize number lc (C.encodeChar (usedPoint np10 f)) (C.encodeChar (usedSep np10 f)) G.1 G.2 f.showpoint
        (shape G.1 G.2 .general (some f.precision.toNat)
          (f.showpoint && !(decide (P < (numeral 10 m).length) && decide ((significant P m e).2 = sciExp m e))) m e) = A at hA2 hA' hB' ⊢
  generalize number lc (C.encodeChar (usedPoint np10 f)) (C.encodeChar (usedSep np10 f)) G.1 G.2 f.showpoint
        (shape G.1 G.2 .general (some f.precision.toNat) f.showpoint m e) = B at hA' hB' ⊢
  generalize columns G.1 G.2 f.showpoint (shape G.1 G.2 .general (some f.precision.toNat) f.showpoint m e) = cB at hcA ⊢
  refine ⟨⟨fun h => hk'.mp ?_, fun h => hB' (hk'.mpr h)⟩, ?_, ?_⟩
  · rw [h] at hA'; omega
  · rw [← hk', ← hM]; omega
  · rw [← hk', ← hM, ← hN]
    by_cases hk0 : k = 0
    · by_cases hM0 : M = 0
      · subst hk0 hM0
        have hl := congrArg List.length (hB' rfl)
        rcases Nat.eq_zero_or_pos N with hN0 | hN0
        · subst hN0
          simp only [true_and, true_or, iff_true, Nat.cast_zero, Int.sub_zero, Int.zero_mul, Int.add_zero]
          omega
        · simp only [true_and, Nat.cast_zero, Int.sub_zero]
          constructor
          · intro h
            right
            by_contra h7
            have h8 : (1 : Int) ≤ N * (((C.encodeChar (usedSep np10 f)).length : Int) - 1) := by
              have h9 : (0 : Int) < N := by omega
              have h10 : (0 : Int) < ((C.encodeChar (usedSep np10 f)).length : Int) - 1 := by omega
              exact Int.mul_pos h9 h10
            omega
          · intro h
            rw [h.resolve_left (by omega)]
            simp only [Nat.cast_one, Int.sub_self, Int.mul_zero, Int.add_zero]
            omega
      · have hN0 : N = 0 := hN.mpr (x1 (by by_contra h; exact hM0 (hM.mpr h)))
        subst hN0
        have hlen := congrArg List.length (hB' hk0)
        simp only [hk0, hM0, true_and, false_and, iff_false, Nat.cast_zero, Int.zero_mul, Int.add_zero]
        omega
    · have hz : ZerosLost f.showpoint P m e := by by_contra h; exact hk0 (hk'.mpr h)
      have hN0 : N = 0 := hN.mpr (x3 hz)
      have hM0 : M = 0 := hM.mpr (x2 hz)
      subst hN0 hM0
      simp only [hk0, false_and, iff_false, Nat.cast_zero, Int.zero_mul, Int.add_zero]
      omega

/-! ### cases -/

/-- the hypotheses: 999.9 and 999999.9 are finite doubles, the facet groups by threes -/
example : Finite .double 0x408F3F3333333333 ∧ Finite .double 0x412E847FCCCCCCCD ∧ Valid [3] true ∧
    FmtOk ⟨0, 0, .fixed, .negativeOnly, false, true⟩ ∧ FmtOk ⟨4, 0, .general, .negativeOnly, true, true⟩ :=
  ⟨by unfold Finite; decide, by unfold Finite; decide, by decide, ⟨by decide, by decide⟩, ⟨by decide, by decide⟩⟩

/-- 999.9 and 999999.9 have another number of groups when rounded to integers, 1234.5 has not -/
example : groupsBefore [3] true 9999 (-1) = 1 ∧ groupsAfter [3] true 0 9999 (-1) = 2 ∧
    groupsBefore [3] true 9999999 (-1) = 2 ∧ groupsAfter [3] true 0 9999999 (-1) = 3 ∧
    groupsBefore [3] true 12345 (-1) = 2 ∧ groupsAfter [3] true 0 12345 (-1) = 2 := by decide +kernel

/-- −9.99 with two digits, 99999.7 with five, 1.00001 with four; 1.5 with four has none of the three defects -/
example : SignMissed .negativeOnly true 2 999 (-2) ∧ Ghosts [3] true 5 999997 (-1) ∧ ZerosLost true 4 100001 (-5) ∧
    ¬ SignMissed .negativeOnly true 4 15 (-1) ∧ ¬ Ghosts [3] true 4 15 (-1) ∧ ¬ ZerosLost true 4 15 (-1) := by
  unfold SignMissed Ghosts ZerosLost; decide +kernel

end Strf.Float

import Verif.Float.Fast
/-
Lemmas: how punct_double_printer prints the digits.
-/
namespace Strf.Float
open Strf.Float.Spec hiding Notation
open Strf.IntDigits Strf.IntDigits.Spec Strf.Numpunct Strf.Numpunct.Spec Strf.Print
open Strf.IntPrinter (b2n b2i AlignFmt signChar printFill)
open Strf.IntPrinter.Spec (Showsign Align before times)
open Strf.Dest (Dest Lawful Prints)

variable {σ : Type} {D : Dest Nat σ} {Rep : σ → List Nat → Prop} {C : Charset σ}

/-- the data describe a number in fixed notation -/
structure FixedOk (gs : List Nat) (rep alt : Bool) (sh : Shape) (d : Data) : Prop where
  form : d.form = .fixed
  exp : sh.exp = none
  lt : d.m < 10 ^ 17
  digcount : d.digcount = (numeral 10 d.m).length
  zero : d.m = 0 → d.e = 0
  extra : 0 ≤ d.extra
  digits : sh.digits = d.m * 10 ^ d.e.toNat * 10 ^ d.extra.toNat
  frac : sh.frac = (-d.e).toNat + d.extra.toNat
  point : d.showpoint = (alt || decide (0 < sh.frac))
  sep : d.sep = ((split gs rep (numeral 10 (sh.digits / 10 ^ sh.frac)).length).length - 1 : Nat)

/-- the data describe a number in scientific notation -/
structure SciOk (alt : Bool) (sh : Shape) (d : Data) : Prop where
  form : d.form = .sci
  exp : sh.exp = some (d.e + d.digcount - 1)
  small : (d.e + d.digcount - 1).natAbs < 1000
  lt : d.m < 10 ^ 17
  digcount : d.digcount = (numeral 10 d.m).length
  extra : 0 ≤ d.extra
  digits : sh.digits = d.m * 10 ^ d.extra.toNat
  frac : sh.frac = (numeral 10 d.m).length - 1 + d.extra.toNat
  point : d.showpoint = (alt || decide (0 < sh.frac))
  sep : d.sep = 0

theorem frac_eq (m : Nat) (e : Int) (x : Nat) :
    decDigits ((-e).toNat + x) (m * 10 ^ e.toNat * 10 ^ x) =
      (if 0 ≤ e then [] else decDigits (-e).toNat m) ++ List.replicate x 0x30 := by
  rw [decDigits_mul]
  split_ifs with h
  · rw [show (-e).toNat = 0 by omega]; rfl
  · rw [show e.toNat = 0 by omega]; simp

theorem int_eq (m : Nat) (e : Int) (x : Nat) :
    m * 10 ^ e.toNat * 10 ^ x / 10 ^ ((-e).toNat + x) = if 0 ≤ e then m * 10 ^ e.toNat else m / 10 ^ (-e).toNat := by
  rw [← fixed_int, Nat.pow_add, Nat.mul_div_mul_right _ _ (Nat.pow_pos (by decide))]

/-- 2375–2469 print_fixed_, after the sign and the zeros -/
def fixedBody (D : Dest Nat σ) (C : Charset σ) (unitBits : Nat) (p : Printer) (s : σ) : Option σ :=
  let d := p.data
  if d.e ≥ 0 then
    (printInteger D C unitBits p s).bind fun s =>
    (if d.showpoint then D.poke (Dest.ensure D s p.pointSize) (pointUnits C p.point) else some s).bind fun s =>
    Dest.writeFill D s d.extra 0x30
  else
    let absE := -d.e
    if absE ≥ d.digcount then
      (D.poke (Dest.ensure D s (1 + p.pointSize)) (0x30 :: pointUnits C p.point)).bind fun s =>
      (Dest.writeFill D s (absE - d.digcount) 0x30).bind fun s =>
      (writeInt D 10 .lower d.m d.digcount.toNat s).bind fun s =>
      Dest.writeFill D s d.extra 0x30
    else
      (pow10 absE).bind fun p10 =>
      (printIntPart D C p (d.m / p10) (d.digcount - absE).toNat s).bind fun s =>
      (D.poke (Dest.ensure D s p.pointSize) (pointUnits C p.point)).bind fun s =>
      (writeLeadingZeros D (d.m % p10) absE.toNat s).bind fun s =>
      Dest.writeFill D s d.extra 0x30

/-- the sign and the zeros -/
def signZeros (D : Dest Nat σ) (d : Data) (s : σ) : Option σ :=
  (putSign D d s).bind fun s => Dest.writeFill D s (d.pad0 - d.sub) 0x30

theorem pointUnits_eq (HC : C.Lawful D Rep) (point : Nat) : pointUnits C point = C.encodeChar point := by
  unfold pointUnits
  split_ifs with h
  · rw [HC.ascii _ h]
  · rfl

theorem writeInt_prints (L : Lawful D Rep) (m : Nat) (h : m < 2 ^ 64) :
    Prints τ D Rep (writeInt D 10 .lower m (numeral 10 m).length) (text 10 .lower m) := by
  have := write_int_exact (τ := τ) L 10 8 m .lower (by simp [Base]) (by simp [Bytes]) h
  rwa [count_eq m h] at this

/-- the separator is as the printer's constructor sets it, and `st` is what is written: if there are no digits after the point
and it has one code unit, its code point cast to CharT (2397) -/
structure SepOk (C : Charset σ) (unitBits : Nat) (p : Printer) (st : List Nat) : Prop where
  size : p.data.sep ≠ 0 → p.sepSize = (C.encodeChar p.sep).length
  cast : p.data.sep ≠ 0 → 0 ≤ p.data.e → (C.encodeChar p.sep).length = 1 → st = [p.sep % 2 ^ unitBits]
  other : p.data.sep ≠ 0 → ¬ (0 ≤ p.data.e ∧ (C.encodeChar p.sep).length = 1) → st = C.encodeChar p.sep

theorem grouped_exact (L : Lawful D Rep) (HC : C.Lawful D Rep) (p : Printer) (gs : List Nat) (rep : Bool) (hg : Valid gs rep)
    (hgr : p.grouping = ctor2 (args gs rep)) (unitBits : Nat) {st : List Nat} (hs : SepOk C unitBits p st)
    (he : p.data.e < 0) (v : Nat) (hv : v < 2 ^ 64)
    (hsep : p.data.sep = ((split gs rep (numeral 10 v).length).length - 1 : Nat)) :
    Prints τ D Rep (printIntPart D C p v (numeral 10 v).length)
      (grouped st (split gs rep (numeral 10 v).length).reverse (text 10 .lower v)) := by
  have hshort := HC.short p.sep
  have hcnt : separatorsCount (ctor2 (args gs rep)) (numeral 10 v).length = (split gs rep (numeral 10 v).length).length - 1 :=
    separators_count_exact gs rep hg _
  by_cases h0 : p.data.sep = 0
  · rw [grouped_plain gs _ rep _ _ (by rw [text_length]) (by omega)]
    refine prints_congr (writeInt_prints L v hv) fun s => ?_
    unfold printIntPart; rw [if_pos h0]
  · rw [hs.other h0 (by omega)]
    by_cases h1 : p.sepSize = 1
    · have hl := hs.size h0
      have hu : C.encodeChar p.sep = [if p.sep < 0x80 then p.sep else (C.encodeChar p.sep).headD 0] := by
        split_ifs with h8
        · exact HC.ascii _ h8
        · obtain ⟨u, hu⟩ := List.length_eq_one_iff.mp (show (C.encodeChar p.sep).length = 1 by omega)
          rw [hu]; rfl
      have := write_int_little_sep_exact_partial (τ := τ) L 10 8 v (if p.sep < 0x80 then p.sep else (C.encodeChar p.sep).headD 0) .lower
        (by simp [Base]) (by decide) (by simp [Bytes]) hv gs rep hg (by rw [count_eq v hv, hcnt]; omega)
      rw [count_eq v hv, hcnt, ← hu, text_length] at this
      refine prints_congr this fun s => ?_
      unfold printIntPart; rw [if_neg h0, if_pos h1, hgr, hsep, Int.toNat_natCast]
    · have := write_int_big_sep_exact (τ := τ) L 10 8 v (C.encodeChar p.sep) (by omega) .lower
        (by simp [Base]) (by simp [Bytes]) hv gs rep hg
      rw [count_eq v hv, text_length] at this
      refine prints_congr this fun s => ?_
      unfold printIntPart; rw [if_neg h0, if_neg h1, hgr]

theorem integer_exact (L : Lawful D Rep) (HC : C.Lawful D Rep) (p : Printer) (gs : List Nat) (rep : Bool) (hg : Valid gs rep)
    (hgr : p.grouping = ctor2 (args gs rep)) (unitBits : Nat) {st : List Nat} (hs : SepOk C unitBits p st) (hv : p.data.m < 2 ^ 64)
    (hz : p.data.m = 0 → p.data.e = 0) (hdc : p.data.digcount = (numeral 10 p.data.m).length) (he : 0 ≤ p.data.e)
    (hsep : p.data.sep = ((split gs rep (numeral 10 (p.data.m * 10 ^ p.data.e.toNat)).length).length - 1 : Nat)) :
    Prints τ D Rep (printInteger D C unitBits p)
      (grouped st (split gs rep (numeral 10 (p.data.m * 10 ^ p.data.e.toNat)).length).reverse
        (text 10 .lower (p.data.m * 10 ^ p.data.e.toNat))) := by
  have hshort := HC.short p.sep
  have ht : text 10 .lower (p.data.m * 10 ^ p.data.e.toNat) = text 10 .lower p.data.m ++ List.replicate p.data.e.toNat 0x30 := by
    by_cases h0 : p.data.m = 0
    · rw [hz h0, h0]; simp
    · exact text_mul _ _ h0
  have hl : (numeral 10 (p.data.m * 10 ^ p.data.e.toNat)).length = (numeral 10 p.data.m).length + p.data.e.toNat := by
    rw [← text_length 10 .lower, ht]; simp [text_length]
  by_cases h0 : p.data.sep = 0
  · rw [grouped_plain gs _ rep _ _ (by rw [text_length]) (by omega), ht]
    refine prints_congr (Prints.comp (writeInt_prints L _ hv) (L.prints_fill (τ := τ) p.data.e 0x30)) fun s => ?_
    unfold printInteger
    dsimp only
    rw [if_pos h0, hdc, Int.toNat_natCast]
  · rw [hl, ht]
    by_cases h1 : p.sepSize = 1
    · rw [hs.cast h0 he (by have := hs.size h0; omega)]
      refine prints_congr (amplified_prints L false [p.sep % 2 ^ unitBits] (fun _ => ⟨_, rfl⟩) (by simp) p.data.m hv gs rep hg
        p.data.e.toNat) fun s => ?_
      unfold printInteger
      dsimp only
      rw [if_neg h0, if_pos h1, hdc, Int.toNat_natCast, hgr]
    · rw [hs.other h0 (by have := hs.size h0; omega)]
      refine prints_congr (amplified_prints L true (C.encodeChar p.sep) (fun h => by simp at h) (by omega) p.data.m hv gs rep hg
        p.data.e.toNat) fun s => ?_
      unfold printInteger
      dsimp only
      rw [if_neg h0, if_neg h1, hdc, Int.toNat_natCast, hgr]

theorem leadingZeros_prints (L : Lawful D Rep) (v f : Nat) (hf : 1 ≤ f) (h64 : f ≤ 64) (h : v < 10 ^ f) :
    Prints τ D Rep (writeLeadingZeros D v f) (decDigits f v) := by
  have hl := len_le v f hf h
  rw [decDigits_small f v hl]
  refine prints_congr (L.prints_raw (τ := τ) f _ (by rw [List.length_append, List.length_replicate, text_length]; omega) h64) fun s => ?_
  unfold writeLeadingZeros
  dsimp only
  rw [back10_eq, text_length, if_pos hl]

theorem decDigits_mod (f v : Nat) : decDigits f (v % 10 ^ f) = decDigits f v := by
  induction f generalizing v with
  | zero => rfl
  | succ f ih =>
    rw [decDigits, decDigits, Nat.pow_succ', Nat.mod_mul_right_div_self, ih]
    congr 3
    exact Nat.mod_mod_of_dvd _ (Dvd.intro _ rfl)

theorem fixed_prints (L : Lawful D Rep) (HC : C.Lawful D Rep) (p : Printer) (gs : List Nat) (rep alt : Bool) (sh : Shape)
    (h : FixedOk gs rep alt sh p.data) (hg : Valid gs rep) (hgr : p.grouping = ctor2 (args gs rep)) (unitBits : Nat)
    {st : List Nat} (hs : SepOk C unitBits p st) (hps : p.pointSize = if p.data.showpoint then C.charSize p.point else 0) (lc : Lettercase) :
    Prints τ D Rep (fixedBody D C unitBits p)
      (number lc (C.encodeChar p.point) st gs rep alt sh) := by
  have hv : p.data.m < 2 ^ 64 := lt_trans h.lt (by decide)
  have hl := len_le p.data.m 17 (by decide) h.lt
  have hlp := len_pos10 p.data.m
  have hshort := HC.short p.point
  have hcs := HC.size p.point
  have hpu := pointUnits_eq HC p.point
  have hnum : number lc (C.encodeChar p.point) st gs rep alt sh =
      body (C.encodeChar p.point) st gs rep alt sh.digits sh.frac := by
    unfold number; rw [h.exp]
  have hsep := h.sep
  rw [hnum, body_eq, h.digits, h.frac, int_eq, frac_eq]
  rw [h.digits, h.frac, int_eq] at hsep
  have hpt : (alt = true ∨ 0 < (-p.data.e).toNat + p.data.extra.toNat) ↔ p.data.showpoint = true := by
    rw [h.point, h.frac]; simp
  by_cases he : 0 ≤ p.data.e
  · simp only [if_pos he] at hsep ⊢
    have hpoint : Prints τ D Rep (fun s => if p.data.showpoint then D.poke (Dest.ensure D s p.pointSize) (pointUnits C p.point) else some s)
        (if alt = true ∨ 0 < (-p.data.e).toNat + p.data.extra.toNat then C.encodeChar p.point else []) := by
      by_cases hsp : p.data.showpoint = true
      · rw [if_pos (hpt.mpr hsp), hps, if_pos hsp, hpu]
        simp only [if_pos hsp]
        exact L.prints_raw (τ := τ) _ _ (by omega) (by omega)
      · rw [if_neg (fun hh => hsp (hpt.mp hh))]
        simp only [if_neg hsp]
        exact Prints.nil
    have := Prints.comp (integer_exact L HC p gs rep hg hgr unitBits hs hv h.zero h.digcount he hsep)
      (Prints.comp hpoint (L.prints_fill (τ := τ) p.data.extra 0x30))
    refine prints_congr (by simpa [List.append_assoc] using this) fun s => ?_
    unfold fixedBody
    dsimp only
    rw [if_pos (by omega)]
  · simp only [if_neg he] at hsep ⊢
    have hsp : p.data.showpoint = true := hpt.mp (.inr (by omega))
    rw [if_pos (hpt.mpr hsp)]
    rw [if_pos hsp, hcs] at hps
    by_cases hd : -p.data.e ≥ p.data.digcount
    · have hge : (numeral 10 p.data.m).length ≤ (-p.data.e).toNat := by rw [h.digcount] at hd; omega
      rw [Nat.div_eq_of_lt (lt_of_len _ _ hge)]
      rw [grouped_plain gs _ rep _ _ (by rw [text_length]) (by rw [len_lt 0 (by omega), split_one gs rep hg]; rfl), text_lt 0 (by omega),
        decDigits_small _ _ hge]
      have := Prints.comp (L.prints_raw (τ := τ) (1 + p.pointSize) (0x30 :: pointUnits C p.point) (by rw [hpu]; simp; omega) (by omega))
        (Prints.comp (L.prints_fill (τ := τ) (-p.data.e - p.data.digcount) 0x30)
          (Prints.comp (writeInt_prints L p.data.m hv) (L.prints_fill (τ := τ) p.data.extra 0x30)))
      rw [show (-p.data.e - p.data.digcount).toNat = (-p.data.e).toNat - (numeral 10 p.data.m).length by rw [h.digcount]; omega, hpu] at this
      refine prints_congr (by simpa [List.append_assoc] using this) fun s => ?_
      unfold fixedBody
      dsimp only
      rw [if_neg (by omega), if_pos hd, hpu, h.digcount, Int.toNat_natCast]
    · have hlt : (-p.data.e).toNat < (numeral 10 p.data.m).length := by rw [h.digcount] at hd; omega
      have hp10 : pow10 (-p.data.e) = some (10 ^ (-p.data.e).toNat) := by
        unfold pow10; rw [if_pos (by omega)]
      have hdl := len_div (-p.data.e).toNat p.data.m hlt
      have hq : p.data.m / 10 ^ (-p.data.e).toNat < 2 ^ 64 := lt_of_le_of_lt (Nat.div_le_self _ _) hv
      have := Prints.comp (grouped_exact L HC p gs rep hg hgr unitBits hs (by omega) _ hq hsep)
        (Prints.comp (L.prints_raw (τ := τ) p.pointSize (pointUnits C p.point) (by rw [hpu]; omega) (by omega))
          (Prints.comp (leadingZeros_prints L (p.data.m % 10 ^ (-p.data.e).toNat) (-p.data.e).toNat (by omega) (by omega)
            (Nat.mod_lt _ (Nat.pow_pos (by decide)))) (L.prints_fill (τ := τ) p.data.extra 0x30)))
      rw [decDigits_mod, hpu] at this
      refine prints_congr (by simpa [List.append_assoc] using this) fun s => ?_
      unfold fixedBody
      dsimp only
      rw [if_neg (by omega), if_neg hd, hp10, Option.bind_some, hpu, hdl, h.digcount,
        show (((numeral 10 p.data.m).length : Int) - -p.data.e).toNat = (numeral 10 p.data.m).length - (-p.data.e).toNat by omega]

theorem printFixed_eq (unitBits : Nat) (p : Printer) (s : σ) :
    printFixed D C unitBits p s = (signZeros D p.data s).bind (fixedBody D C unitBits p) := by
  unfold printFixed signZeros fixedBody
  dsimp only
  rw [Option.bind_assoc]
  congr 1
  funext s
  by_cases h : p.data.pad0 > p.data.sub
  · rw [if_pos h]
  · rw [if_neg h]
    have : Dest.writeFill D s (p.data.pad0 - p.data.sub) 0x30 = some s := by
      unfold Dest.writeFill
      rw [if_neg (by omega)]
    rw [this]

end Strf.Float

import Verif.Float.PrecisionAll
import Verif.Float.SepSharp
/-!
# C58, C61, what exactly is printed and premeasured when rounding carries

`fixed_all` and `general_all` say for every finite number, precision, format, alignment, facet, charset and destination what is
printed and premeasured. `fixed_width_iff` and `general_width_iff` say for which numbers that is what it must be.
-/
namespace Strf.Float
open Strf.Float.Spec hiding Notation
open Strf.IntDigits Strf.IntDigits.Spec Strf.Numpunct Strf.Numpunct.Spec Strf.Print
open Strf.IntPrinter (b2n b2i AlignFmt LayoutOf)
open Strf.IntPrinter.Spec (Showsign Align Layout before times)
open Strf.Dest (Dest Lawful Prints)
open Strf.Dragonbox (toDecimal)

variable {σ : Type} {D : Dest Nat σ} {Rep : σ → List Nat → Prop} {C : Charset σ}

/-- the data of a finite number before a notation is chosen -/
def startData (f : FloatFmt) (a : AlignFmt) (T : FloatT) (bits : Nat) : Data :=
  { Data.start f a (signBit T bits) with subnormal := decide (expBits T bits = 0), m := (decode toDecimal T bits).m10, e := (decode toDecimal T bits).e10 }

theorem initData_precise (T : FloatT) (bits : Nat) (hfin : Finite T bits) (grp : Nat) (f : FloatFmt) (hp : f.precision ≠ -1) (a : AlignFmt) :
    (f.nota = .fixed → initData toDecimal T bits grp f a =
      withPrecisionFixed grp f.precision (Width.round a.width) a.align f.showpoint (startData f a T bits)) ∧
    (f.nota = .general → initData toDecimal T bits grp f a =
      withPrecisionGeneral grp f.precision (Width.round a.width) a.align f.showpoint (startData f a T bits)) := by
  have hst : (if expBits T bits = 0 ∧ manBits T bits = 0 then
        ({ Data.start f a (signBit T bits) with subnormal := decide (expBits T bits = 0), m := 0, e := 0 } : Data)
      else { Data.start f a (signBit T bits) with subnormal := decide (expBits T bits = 0), m := (toDecimal T (expBits T bits) (manBits T bits)).1, e := (toDecimal T (expBits T bits) (manBits T bits)).2 }) =
      startData f a T bits := by
    unfold startData decode
    dsimp only
    split_ifs with h1 h2 h3
    · rfl
    · exact absurd h2 hfin
    · exact absurd h2 hfin
    · rfl
  constructor <;> intro hn <;> unfold initData <;> dsimp only <;> rw [if_neg hfin, if_neg (by rw [hn]; decide), hst, hn] <;>
    dsimp only <;> rw [if_neg hp]

theorem startData_ok (f : FloatFmt) (a : AlignFmt) (T : FloatT) (bits : Nat) :
    StartOk f.sign (signBit T bits) a.fill f.pad0 (decode toDecimal T bits).m10 (decode toDecimal T bits).e10 (startData f a T bits) :=
  start_ok f a _ _ _ _

theorem columns_groups (gs : List Nat) (rep alt : Bool) (v frac : Nat) :
    columns gs rep alt ⟨v, frac, none⟩ = columns [] false alt ⟨v, frac, none⟩ + ((split gs rep (numeral 10 (v / 10 ^ frac)).length).length - 1) := by
  unfold columns number
  dsimp only
  rw [body_length, body_length, split_nil_length]
  simp only [List.length_singleton]
  omega

theorem columns_pos (gs : List Nat) (rep alt : Bool) (sh : Shape) : 1 ≤ columns gs rep alt sh := by
  unfold columns number
  have := len_pos10 (sh.digits / 10 ^ sh.frac)
  cases sh.exp <;> dsimp only <;> (try rw [List.length_append]) <;> rw [body_length] <;> omega

theorem usedGroups_valid (C : Charset σ) (np : Numpunct.Facet) (f : FloatFmt) {gs : List Nat} {rep : Bool} (hg : Valid gs rep) :
    Valid (usedGroups C np f gs rep).1 (usedGroups C np f gs rep).2 := by
  unfold usedGroups; split_ifs
  · exact hg
  · exact valid_nil

theorem split_one_mono {gs : List Nat} {rep : Bool} (hg : Valid gs rep) {n n' : Nat} (h : n ≤ n') (h1 : (split gs rep n').length ≤ 1) :
    (split gs rep n).length ≤ 1 := by
  have e1 := any_separator_exact gs rep hg n
  have e2 := any_separator_exact gs rep hg n'
  rw [separators_count_exact gs rep hg] at e1 e2
  unfold anySeparator at e1 e2
  by_contra hc
  have h3 : (split gs rep n).length - 1 ≠ 0 := by omega
  have h2 : (split gs rep n').length - 1 = 0 := by omega
  simp [h3, h2] at e1 e2
  have := e2 e1.1
  omega

/-- how many groups the digits before the point of `m · 10^e` have, the number not being rounded -/
def groupsBefore (gs : List Nat) (rep : Bool) (m : Nat) (e : Int) : Nat := (split gs rep (max 1 ((numeral 10 m).length + e)).toNat).length

/-- how many they have when it is rounded to `p` digits after the point -/
def groupsAfter (gs : List Nat) (rep : Bool) (p m : Nat) (e : Int) : Nat :=
  (split gs rep (numeral 10 (roundAt m e (-(p : Int)) / 10 ^ p)).length).length

/-- the groups that are printed in the fixed notation with precision: none if the number not rounded has no separator -/
def groupsPrinted (gs : List Nat) (rep : Bool) (m : Nat) (e : Int) : List Nat × Bool :=
  if groupsBefore gs rep m e = 1 then ([], false) else (gs, rep)

/-- C58, C61: the fixed notation with precision and punctuation, for every number. The separators counted are those of the number
before it is rounded; if there are none, none is printed. -/
theorem fixed_all (L : Lawful D Rep) (HC : C.Lawful D Rep) (T : FloatT) (bits : Nat) (hfin : Finite T bits)
    (lc : Lettercase) (np10 np16 : Numpunct.Facet)
    {gs : List Nat} {rep : Bool} (hg : Valid gs rep) (hgr : np10.grouping = ctor2 (args gs rep))
    (f : FloatFmt) (hf : FmtOk f) (hfix : f.nota = .fixed) (hprec : f.precision ≠ -1) (a : AlignFmt) (lay : Layout)
    (hl : LayoutOf a lay) (unitBits : Nat) (hcast : f.punctuate = true → CastOk C unitBits np10.thousandsSep) :
    let m := (decode toDecimal T bits).m10
    let e := (decode toDecimal T bits).e10
    let G := usedGroups C np10 f gs rep
    let G' := groupsPrinted G.1 G.2 m e
    let sh := shape G.1 G.2 .fixed (precision f.precision) f.showpoint m e
    let cols := columns [] false f.showpoint sh + (groupsBefore G.1 G.2 m e - 1)
    let txt := arranged C.encodeChar f.sign f.pad0 lay (signBit T bits) []
      (number lc (C.encodeChar (usedPoint np10 f)) (C.encodeChar (usedSep np10 f)) G'.1 G'.2 f.showpoint sh) cols
    ∃ p pre, Printer.makePunct C toDecimal lc np10 np16 T bits f a = some (p, pre) ∧
      Prints τ D Rep (p.print D C unitBits) txt ∧
      pre.width = arrangedWidth f.sign f.pad0 lay (signBit T bits) [] cols ∧
      pre.size = ((txt.length : Int) - ((groupsAfter G'.1 G'.2 f.precision.toNat m e : Int) - groupsBefore G.1 G.2 m e) *
        (C.encodeChar (usedSep np10 f)).length).toNat := by
  intro m e G G' sh cols txt
  have hvalid := usedGroups_valid C np10 f hg
  obtain ⟨p, hp⟩ : ∃ p : Nat, f.precision = p := ⟨f.precision.toNat, by have := hf.precision; omega⟩
  have hp2 : p ≤ 2 ^ 29 := by have := hf.precision; omega
  have hpt : f.precision.toNat = p := by omega
  have hpr : precision f.precision = some p := by unfold precision; rw [if_neg hprec, hpt]
  have hsh : sh = ⟨roundAt m e (-(p : Int)), p, none⟩ := by show shape _ _ _ _ _ _ _ = _; rw [hpr]; rfl
  have hinit := (initData_precise T bits hfin (ctor2 (args G.1 G.2)) f hprec a).1 hfix
  obtain ⟨d, h1, h2, h3, h4, h5, h10⟩ := withPrecisionFixed_all (gs := G.1) (rep := G.2) hvalid (startData_ok f a T bits) (decode_good hfin)
    (Width.round a.width) a.align f.showpoint p hp2
  rw [hp, h1] at hinit
  have hlc : lay.columns = Width.round a.width := congrArg (·.columns) hl.columns
  have hla := hl.2.1
  have hlf := hl.1
  have hok : FixedOk [] false f.showpoint sh { d with sep := 0, sub := d.sub - d.sep } := by
    rcases h2.ok with h | h
    · rw [hsh]; exact h
    · have := h.form; dsimp only at this; rw [h3] at this; exact absurd this (by decide)
  have hil : (numeral 10 (sh.digits / 10 ^ sh.frac)).length = (max 1 (d.digcount + d.e)).toNat := by
    have h6 := hok.digcount
    have h7 := hok.digits
    have h8 := hok.frac
    have h9 := int_len d.m d.e d.extra.toNat hok.zero
    dsimp only at h6 h7 h8
    rw [h7, h8, h9, h6]
  have hn0 : 1 ≤ groupsBefore G.1 G.2 m e := split_length_pos _ _ hvalid _ (by omega)
  have hsep : d.sep = ((groupsBefore G.1 G.2 m e : Nat) : Int) - 1 := by
    have h4' : d.sep = ((groupsBefore G.1 G.2 m e - 1 : Nat) : Int) := h4
    omega
  have hvalid' : Valid G'.1 G'.2 := by
    show Valid (groupsPrinted G.1 G.2 m e).1 (groupsPrinted G.1 G.2 m e).2
    unfold groupsPrinted; split_ifs
    · exact valid_nil
    · exact hvalid
  have hn1 : 1 ≤ groupsAfter G'.1 G'.2 p m e := split_length_pos _ _ hvalid' _ (len_pos10 _)
  have hcol : columns G'.1 G'.2 f.showpoint sh = columns [] false f.showpoint sh + (groupsAfter G'.1 G'.2 p m e - 1) := by
    rw [hsh]; exact columns_groups _ _ _ _ _
  have hgl := split_length_le G'.1 G'.2 hvalid' (numeral 10 (sh.digits / 10 ^ sh.frac)).length (len_pos10 _)
  have hga : (split G'.1 G'.2 (numeral 10 (sh.digits / 10 ^ sh.frac)).length).length = groupsAfter G'.1 G'.2 p m e := by rw [hsh]; rfl
  have hc0 : columns [] false f.showpoint (shape G.1 G.2 .fixed (some p) f.showpoint m e) = columns [] false f.showpoint sh := by
    show columns _ _ _ _ = columns _ _ _ (shape _ _ _ _ _ _ _); rw [hpr]
  have h6 : d.sub - d.sep = (leaderColumns f.sign (signBit T bits) : Nat) + (columns [] false f.showpoint sh : Nat) := by
    rw [← hc0]; exact h2.sub
  have hcu : (columns [] false f.showpoint sh : Int) ≤ 2 ^ 30 := by
    rw [hsh]
    unfold columns number
    dsimp only
    rw [body_length, split_nil_length]
    have h7 : (numeral 10 (roundAt m e (-(p : Int)) / 10 ^ p)).length = (max 1 (d.digcount + d.e)).toNat := by rw [← hil, hsh]
    have h8 := len_le _ 17 (by decide) hok.lt
    have h9 := hok.digcount
    dsimp only at h8 h9
    rw [h7]
    split_ifs <;> simp only [List.length_singleton, List.length_nil] <;> push_cast <;> omega
  have hb' : ((groupsAfter G'.1 G'.2 p m e : Nat) : Int) ≤ 1000 := by
    have h8 := len_le _ 17 (by decide) hok.lt
    have h9 := hok.digcount
    dsimp only at h8 h9
    rw [hga, hil] at hgl
    omega
  have hbb : ((groupsBefore G.1 G.2 m e : Nat) : Int) ≤ 1000 := by
    have h8 := split_length_le G.1 G.2 hvalid (max 1 ((numeral 10 m).length + e)).toNat (by omega)
    have h9 : GoodDec m e := decode_good hfin
    have h11 := len_le m 17 (by decide) h9.lt
    have h13 : e ≤ 400 := h9.hi
    have h12 : groupsBefore G.1 G.2 m e ≤ (max 1 ((numeral 10 m).length + e)).toNat := h8
    omega
  have hb : d.sub ≤ 2147483647 := by have := leaderColumns_le f.sign (signBit T bits); omega
  have hgood : Good G'.1 G'.2 f.showpoint sh f.sign (signBit T bits) lay.fill f.pad0
      { d with sep := (groupsAfter G'.1 G'.2 p m e : Int) - 1,
               sub := d.sub + ((groupsAfter G'.1 G'.2 p m e : Int) - groupsBefore G.1 G.2 m e) } := by
    refine ⟨.inl ⟨hok.form, hok.exp, hok.lt, hok.digcount, hok.zero, hok.extra, hok.digits, hok.frac, hok.point, ?_⟩,
      ⟨h2.sg.char, h2.sg.shown⟩, ?_, h2.pad0, ?_, ?_⟩
    · dsimp only; rw [hga]; omega
    · rw [hlf]; exact h2.fill
    · dsimp only; rw [hcol]; push_cast; omega
    · have := leaderColumns_le f.sign (signBit T bits); dsimp only; omega
  have hcols : (cols : Int) + ((groupsAfter G'.1 G'.2 p m e : Int) - groupsBefore G.1 G.2 m e) = columns G'.1 G'.2 f.showpoint sh := by
    rw [hcol]; show ((columns [] false f.showpoint sh + (groupsBefore G.1 G.2 m e - 1) : Nat) : Int) + _ = _; push_cast; omega
  have hG' : G' = if groupsBefore G.1 G.2 m e = 1 then ([], false) else G := rfl
  obtain ⟨q, pre, r1, r2, r3, r4⟩ := punct_near (τ := τ) L HC toDecimal T bits lc np10 np16 hg hgr f hf.pad0 (by rw [hfix]; decide) a lay unitBits hcast
    hvalid' (d := d) (cols := cols) (by rw [hlc, hla]; exact hinit) hgood hb hcols (by
      by_cases h0 : groupsBefore G.1 G.2 m e = 1
      · refine .inr (.inl ⟨h3, by omega, ?_⟩)
        rw [hG', if_pos h0]
        show ((split [] false _).length : Int) - 1 = 0
        rw [split_nil_length]; rfl
      · rw [if_neg h0] at hG'
        refine .inr (.inr ⟨?_, congrArg Prod.fst hG', congrArg Prod.snd hG'⟩)
        have hga : groupsAfter G'.1 G'.2 p m e = (split G.1 G.2 (max 1 (d.digcount + d.e)).toNat).length := by
          rw [← hil, hG', hsh]; rfl
        rcases h5 with h5 | h5
        · by_cases h7 : (groupsAfter G'.1 G'.2 p m e : Int) - 1 = 0
          · right
            exfalso
            have h8 := split_one_mono hvalid (n := (max 1 (((numeral 10 m).length : Int) + e)).toNat) (n' := (max 1 (d.digcount + d.e)).toNat)
              (Int.toNat_le_toNat h5.2) (by rw [← hga]; omega)
            exact h0 (Nat.le_antisymm h8 hn0)
          · exact .inl ⟨h3, h5.1, by omega, h7⟩
        · right
          rw [hga, h5, hsep]; rfl) (by
      intro h h'
      have h6 : groupsBefore G.1 G.2 m e = 1 := by
        show (split G.1 G.2 _).length = 1
        have h7 : G.2 = false := hvalid.2.2 h'
        rw [show G.1 = [] from h', h7, split_nil_length]
      omega) (by
      intro h h'
      apply h
      rw [hG', if_pos (by omega)]
      show ((split [] false _).length : Int) - 1 = 0
      rw [split_nil_length]; rfl)
  refine ⟨q, pre, r1, r2, r3, ?_⟩
  rw [r4, hpt]
  congr 1
  show (txt.length : Int) - _ + _ = _
  rw [hsep]
  ring

/-- C58, C61: the general notation with precision and punctuation, for every number. Let `P` be the number of digits, `x` the
exponent of the number rounded to them. If digits are removed and `x` is the exponent of the number not rounded, zeros at the end
are never printed. If `x` is greater and the scientific notation is not chosen, the sign is not counted. If the scientific
notation is chosen only because of that, the separators of a number of `P` digits are added to the size, save one code unit for each. -/
theorem general_all (L : Lawful D Rep) (HC : C.Lawful D Rep) (T : FloatT) (bits : Nat) (hfin : Finite T bits)
    (lc : Lettercase) (np10 np16 : Numpunct.Facet)
    {gs : List Nat} {rep : Bool} (hg : Valid gs rep) (hgr : np10.grouping = ctor2 (args gs rep))
    (f : FloatFmt) (hf : FmtOk f) (hgen : f.nota = .general) (hprec : f.precision ≠ -1) (a : AlignFmt) (lay : Layout)
    (hl : LayoutOf a lay) (unitBits : Nat) (hcast : f.punctuate = true → CastOk C unitBits np10.thousandsSep) :
    let m := (decode toDecimal T bits).m10
    let e := (decode toDecimal T bits).e10
    let G := usedGroups C np10 f gs rep
    let P := max f.precision.toNat 1
    let x := (significant P m e).2
    let zeros := f.showpoint && !(decide (P < (numeral 10 m).length) && decide (x = sciExp m e))
    let sh := shape G.1 G.2 .general (precision f.precision) zeros m e
    let missed := if x ≠ sciExp m e ∧ ¬ (x < -4 ∨ (P : Int) ≤ x) then leaderColumns f.sign (signBit T bits) else 0
    let ghosts := if x ≠ sciExp m e ∧ sciExp m e + 1 = (P : Int) then (split G.1 G.2 P).length - 1 else 0
    let cols := columns G.1 G.2 f.showpoint sh - missed
    let txt := arranged C.encodeChar f.sign f.pad0 lay (signBit T bits) []
      (number lc (C.encodeChar (usedPoint np10 f)) (C.encodeChar (usedSep np10 f)) G.1 G.2 f.showpoint sh) cols
    ∃ p pre, Printer.makePunct C toDecimal lc np10 np16 T bits f a = some (p, pre) ∧
      Prints τ D Rep (p.print D C unitBits) txt ∧
      pre.width = arrangedWidth f.sign f.pad0 lay (signBit T bits) [] cols ∧
      pre.size = ((txt.length : Int) - missed + ghosts * (((C.encodeChar (usedSep np10 f)).length : Int) - 1)).toNat := by
  intro m e G P x zeros sh missed ghosts cols txt
  have hvalid := usedGroups_valid C np10 f hg
  obtain ⟨p, hp⟩ : ∃ p : Nat, f.precision = p := ⟨f.precision.toNat, by have := hf.precision; omega⟩
  have hp2 : p ≤ 2 ^ 29 := by have := hf.precision; omega
  have hpt : f.precision.toNat = p := by omega
  have hpr : precision f.precision = some p := by unfold precision; rw [if_neg hprec, hpt]
  have hP : P = max p 1 := by show max f.precision.toNat 1 = _; rw [hpt]
  have hsh : sh = genPrinted (max p 1) f.showpoint m e := by
    show shape _ _ _ _ _ _ _ = _
    rw [hpr, shape_general, ← hP]; rfl
  have hinit := (initData_precise T bits hfin (ctor2 (args G.1 G.2)) f hprec a).2 hgen
  obtain ⟨d, s, t, h1, h2, h3, h4, h5, h6⟩ := withPrecisionGeneral_all (gs := G.1) (rep := G.2) hvalid (sign := f.sign) (neg := signBit T bits)
    (fill := a.fill) (pad0 := f.pad0) (Width.round a.width) a.align f.showpoint p hp2 (startData_ok f a T bits) (decode_good hfin)
  rw [hp, h1] at hinit
  have hlc : lay.columns = Width.round a.width := congrArg (·.columns) hl.columns
  have ht : t = (missed : Int) := by
    rw [h4]
    show _ = ((if (significant P m e).2 ≠ sciExp m e ∧ ¬ ((significant P m e).2 < -4 ∨ (P : Int) ≤ (significant P m e).2)
      then leaderColumns f.sign (signBit T bits) else 0 : Nat) : Int)
    rw [hP]
    split_ifs <;> rfl
  have hn1 : 1 ≤ (split G.1 G.2 P).length := split_length_pos _ _ hvalid _ (by omega)
  have hgh : d.sep - s = (ghosts : Int) := by
    rw [h5]
    show _ = ((if (significant P m e).2 ≠ sciExp m e ∧ sciExp m e + 1 = (P : Int) then (split G.1 G.2 P).length - 1 else 0 : Nat) : Int)
    rw [hP] at hn1 ⊢
    split_ifs <;> omega
  have hcol := columns_pos G.1 G.2 f.showpoint sh
  have hmissed : missed ≤ 1 := by
    have h8 := leaderColumns_le f.sign (signBit T bits)
    show (if _ then leaderColumns f.sign (signBit T bits) else 0) ≤ 1
    split_ifs <;> omega
  have hcols : (cols : Int) + t = columns G.1 G.2 f.showpoint sh := by
    rw [ht]; show ((columns G.1 G.2 f.showpoint sh - missed : Nat) : Int) + _ = _; omega
  have hnil : d.sep ≠ 0 → G.1 ≠ [] := by
    intro h h'
    have h7 : G.2 = false := hvalid.2.2 h'
    have hs0 : s = 0 := by
      rcases h6.ok with h8 | h8
      · have h9 := h8.sep
        dsimp only at h9
        rw [h9, show G.1 = [] from h', h7, split_nil_length]; rfl
      · exact h8.sep
    have h10 : ghosts = 0 := by
      show (if _ then (split G.1 G.2 P).length - 1 else 0) = 0
      rw [show G.1 = [] from h', h7, split_nil_length]; split_ifs <;> rfl
    rw [h10, hs0] at hgh
    exact h (by omega)
  obtain ⟨q, pre, r1, r2, r3, r4⟩ := punct_near (τ := τ) L HC toDecimal T bits lc np10 np16 hg hgr f hf.pad0 (by rw [hgen]; decide) a lay unitBits hcast
    hvalid (d := d) (s := s) (t := t) (cols := cols) (sh := sh) (neg := signBit T bits) (by rw [hlc, hl.2.1]; exact hinit)
    (by rw [hsh, hl.1]; exact h6) h2 hcols
    (by rcases h3 with h3 | h3
        · exact .inl h3.1
        · exact .inr (.inr ⟨.inr h3, rfl, rfl⟩)) hnil
    (by intro h; rcases h3 with h3 | h3
        · exact absurd h3.2 h
        · rw [← h3]; exact h)
  refine ⟨q, pre, r1, r2, r3, ?_⟩
  rw [r4, ht, hgh]

end Strf.Float

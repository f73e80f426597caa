import Verif.Float.Hex
/-
Lemmas: printing in the hexadecimal notation.
-/
namespace Strf.Float
open Strf.Float.Spec hiding Notation
open Strf.IntDigits Strf.IntDigits.Spec Strf.Numpunct Strf.Numpunct.Spec Strf.Print
open Strf.IntPrinter (b2n b2i AlignFmt signChar printFill printFill_ok LayoutOf times_length times_succ)
open Strf.IntPrinter.Spec (Showsign Align Layout before times)
open Strf.Dest (Dest Lawful Prints)

variable {σ : Type} {D : Dest Nat σ} {Rep : σ → List Nat → Prop} {C : Charset σ}

/-- "0x" or "0X" -/
def hexBase (lc : Lettercase) : List Nat := [0x30, if lc = .upper then 0x58 else 0x78]

/-- the exponent in hexadecimal notation -/
def hexExpText (lc : Lettercase) (x : Int) : List Nat :=
  (if lc = .upper then 0x50 else 0x70) :: (if x < 0 then 0x2D else 0x2B) :: text 10 .lower x.natAbs

theorem hexExp_eq (p : Printer) (hx : p.data.e.natAbs < 2 ^ 64) (hsep : p.data.sep = (numeral 10 p.data.e.natAbs).length) :
    hexExp p = some (hexExpText p.lc p.data.e) := by
  have hb : back10 p.data.e.natAbs [] = text 10 .lower p.data.e.natAbs := by
    have := back10_ok .lower p.data.e.natAbs []
    rwa [List.append_nil] at this
  unfold hexExp
  dsimp only
  rw [hb, text_length, hsep, Int.toNat_natCast, if_pos rfl]
  unfold hexExpText
  have h1 : (0x50 ||| if p.lc ≠ .upper then 32 else 0) = if p.lc = .upper then 0x50 else 0x70 := by cases p.lc <;> rfl
  rw [h1]
  by_cases h : p.data.e < 0 <;> simp [h]

theorem hexText_eq (lc : Lettercase) (point : List Nat) {alt : Bool} {lead frac : Nat} {x : Int} {prec : Option Nat} {d : Data}
    (h : HexOk alt lead frac x prec d) :
    hexText lc point alt lead frac x prec =
      (digitChar lc lead :: (if d.showpoint then point else []) ++ hexDigits lc d.digcount.toNat (d.m / 16 ^ (13 - d.digcount.toNat))) ++
      List.replicate d.extra.toNat 0x30 ++ hexExpText lc x := by
  have h1 := h.first
  have h2 := h.digits lc
  have h3 := h.point
  unfold hexText
  generalize hexShape lead frac prec = q at *
  obtain ⟨v, f⟩ := q
  dsimp only at *
  rw [h1, h2, h3]
  unfold hexExpText
  by_cases hp : alt = true ∨ 0 < f
  · have hb : (alt || decide (0 < f)) = true := by simpa using hp
    simp only [hp, hb, if_true, List.append_assoc, List.cons_append, List.nil_append]
  · have hb : (alt || decide (0 < f)) = false := by simpa using hp
    simp only [hp, hb, if_false, Bool.false_eq_true, List.append_assoc, List.cons_append, List.nil_append]

theorem hexMiddle_eq (HC : C.Lawful D Rep) (p : Printer) {alt : Bool} {lead frac : Nat} {x : Int} {prec : Option Nat} (hlead : lead ≤ 1)
    (h : HexOk alt lead frac x prec p.data) :
    hexMiddle C p = some (digitChar p.lc lead :: (if p.data.showpoint then C.encodeChar p.point else []) ++
      hexDigits p.lc p.data.digcount.toNat (p.data.m / 16 ^ (13 - p.data.digcount.toNat))) := by
  have h13 : p.data.digcount.toNat ≤ 13 := by have := h.hi; omega
  unfold hexMiddle
  dsimp only
  have hl : (0x30 ||| if p.data.subnormal then 0 else 1) = digitChar p.lc lead := by
    rw [h.sub]
    have : lead = 0 ∨ lead = 1 := by omega
    rcases this with rfl | rfl <;> cases p.lc <;> rfl
  rw [hl, pointUnits_eq HC]
  by_cases hm : p.data.m = 0
  · rw [if_neg (by simpa using hm), h.none hm]
    simp [hexDigits]
  · rw [if_pos hm, if_pos h13, nibbles_take _ _ _ h13]

set_option maxHeartbeats 1000000 in
theorem hex_prints (L : Lawful D Rep) (HC : C.Lawful D Rep) (p : Printer) {alt : Bool} {lead frac : Nat} {x : Int} {prec : Option Nat}
    (hlead : lead ≤ 1) (hx : x.natAbs < 10000) (h : HexOk alt lead frac x prec p.data)
    (hps : p.pointSize = if p.data.showpoint then C.charSize p.point else 0)
    (hsub : p.data.sub = b2i p.data.showsign + 5 + p.data.sep + b2i p.data.showpoint + p.data.digcount) :
    Prints τ D Rep (printHex D C p) ((if p.data.showsign then [p.data.sign] else []) ++ hexBase p.lc ++
      List.replicate (p.data.pad0 - (p.data.sub + p.data.extra)).toNat 0x30 ++ hexText p.lc (C.encodeChar p.point) alt lead frac x prec) := by
  have h4 : (numeral 10 x.natAbs).length ≤ 4 := len_le _ 4 (by decide) hx
  have h41 := len_pos10 x.natAbs
  have hsep := h.sep
  have hlo := h.lo
  have hhi := h.hi
  have hex := h.extra
  have hshort := HC.short p.point
  have hcs := HC.size p.point
  rw [hexText_eq p.lc (C.encodeChar p.point) h]
  have hmid := hexMiddle_eq HC p hlead h
  have hexp := hexExp_eq p (by rw [h.exp]; omega) (by rw [h.exp]; exact hsep)
  rw [h.exp] at hexp
  generalize hM : (digitChar p.lc lead :: (if p.data.showpoint then C.encodeChar p.point else []) ++
      hexDigits p.lc p.data.digcount.toNat (p.data.m / 16 ^ (13 - p.data.digcount.toNat))) = mid at *
  have hml : (mid.length : Int) = 1 + (if p.data.showpoint then ((C.encodeChar p.point).length : Int) else 0) + p.data.digcount := by
    rw [← hM]
    simp only [List.cons_append, List.length_cons, List.length_append, hexDigits_length]
    split_ifs <;> simp <;> omega
  have hel : (hexExpText p.lc x).length = 2 + (numeral 10 x.natAbs).length := by
    unfold hexExpText; simp only [List.length_cons, text_length]; omega
  generalize hexExpText p.lc x = ex at *
  have hss : p.data.sub + p.pointSize - b2i p.data.showpoint = b2i p.data.showsign + 4 + p.data.sep + mid.length := by
    rw [hsub, hml, hps, hcs]
    cases p.data.showpoint <;> simp [b2i] <;> omega
  have hb1 : b2i p.data.showsign = 0 ∨ b2i p.data.showsign = 1 := by cases p.data.showsign <;> simp [b2i]
  have hb2 : (b2n p.data.showsign : Int) = b2i p.data.showsign := by cases p.data.showsign <;> rfl
  have hmm : (mid.length : Int) ≤ 18 := by rw [hml]; split_ifs <;> omega
  have hlead : ((if p.data.showsign then [p.data.sign] else []) ++ [0x30, 0x58 ||| if p.lc ≠ .upper then 32 else 0]) =
      (if p.data.showsign then [p.data.sign] else []) ++ hexBase p.lc := by
    unfold hexBase; cases p.lc <;> rfl
  have hll : (((if p.data.showsign then [p.data.sign] else []) ++ hexBase p.lc).length : Int) = b2i p.data.showsign + 2 := by
    cases p.data.showsign <;> rfl
  have hsubz : (p.data.sub + p.pointSize - b2i p.data.showpoint).toNat ≤ 64 := by omega
  unfold printHex
  dsimp only
  rw [hlead, hmid, hexp]
  simp only [Option.bind_some]
  generalize ((if p.data.showsign then [p.data.sign] else []) ++ hexBase p.lc) = lead' at *
  by_cases hpad : p.data.pad0 > p.data.sub + p.data.extra
  · simp only [if_pos hpad]
    by_cases hxz : p.data.extra = 0
    · rw [hxz]
      simp only [ne_eq, not_true, if_false, Int.toNat_zero, List.replicate_zero, List.append_nil]
      have := L.prints_raw_then (τ := τ) _ lead' (by omega) hsubz (Prints.comp (L.prints_fill (τ := τ) (p.data.pad0 - (p.data.sub + p.data.extra)) 0x30)
        (L.prints_raw (τ := τ) ((p.data.sub + p.pointSize - b2i p.data.showpoint).toNat - 2 - b2n p.data.showsign) (mid ++ ex)
          (by rw [List.length_append]; omega) (by omega))) (fun _ => by simp only [List.length_append, List.length_replicate]; omega)
      rw [hxz] at this
      simp only [List.append_assoc] at this ⊢
      refine prints_congr this fun s => ?_
      simp only [Option.bind_assoc, Option.bind_some, List.nil_append]
    · simp only [ne_eq, hxz, not_false_iff, if_true]
      have := L.prints_raw_then (τ := τ) _ lead' (by omega) hsubz (Prints.comp (L.prints_fill (τ := τ) (p.data.pad0 - (p.data.sub + p.data.extra)) 0x30)
        (L.prints_raw_then (τ := τ) ((p.data.sub + p.pointSize - b2i p.data.showpoint).toNat - 2 - b2n p.data.showsign) mid (by omega) (by omega)
          (Prints.comp (L.prints_fill (τ := τ) p.data.extra 0x30) (L.prints_raw (τ := τ) (2 + p.data.sep.toNat) ex (by omega) (by omega)))
          (fun _ => by simp only [List.length_append, List.length_replicate]; omega)))
        (fun _ => by simp only [List.length_append, List.length_replicate]; omega)
      simp only [List.append_assoc] at this ⊢
      refine prints_congr this fun s => ?_
      simp only [Option.bind_assoc, Option.bind_some, List.nil_append]
  · have hz : (p.data.pad0 - (p.data.sub + p.data.extra)).toNat = 0 := by omega
    rw [hz]
    simp only [if_neg hpad, Option.bind_some]
    by_cases hxz : p.data.extra = 0
    · rw [hxz]
      simp only [ne_eq, not_true, if_false, Int.toNat_zero, List.replicate_zero, List.append_nil]
      rw [List.append_assoc]
      refine L.prints_raw (τ := τ) _ _ (by simp only [List.length_append]; omega) hsubz
    · simp only [ne_eq, hxz, not_false_iff, if_true]
      have := L.prints_raw_then (τ := τ) _ (lead' ++ mid) (by simp only [List.length_append]; omega) hsubz
        (Prints.comp (L.prints_fill (τ := τ) p.data.extra 0x30) (L.prints_raw (τ := τ) (2 + p.data.sep.toNat) ex (by omega) (by omega)))
        (fun _ => by simp only [List.length_append, List.length_replicate]; omega)
      simp only [List.append_assoc, List.replicate_zero, List.nil_append] at this ⊢
      exact this

/-- the number in hexadecimal notation, formatted -/
def hexFormatted (enc : Nat → List Nat) (lc : Lettercase) (point : Nat) (f : FloatFmt) (lay : Layout) (neg : Bool) (lead frac : Nat) (x : Int) :
    List Nat :=
  arranged enc f.sign f.pad0 lay neg (hexBase lc) (hexText lc (enc point) f.showpoint lead frac x (precision f.precision))
    (hexColumns f.showpoint lead frac x (precision f.precision))

/-- its width -/
def hexWidth (f : FloatFmt) (lay : Layout) (neg : Bool) (lead frac : Nat) (x : Int) : Nat :=
  arrangedWidth f.sign f.pad0 lay neg (hexBase .lower) (hexColumns f.showpoint lead frac x (precision f.precision))

theorem times_before (C : Charset σ) (HC : C.Lawful D Rep) {sign : Showsign} {neg : Bool} {w : Int} {al : Align} {content : Nat} {d d' : Data} {r : Res}
    (h : Filled C D Rep sign neg w al content d d' r) :
    times C.encodeChar d'.left.toNat d.fill ++ (if d'.showsign then [d'.sign] else []) =
      times C.encodeChar (before al (w - content).toNat) d.fill ++ leader C.encodeChar sign d.fill neg := by
  have hl := h.left
  cases hs : d'.showsign
  · rw [if_neg (by simp)]
    rw [hs] at hl
    rcases h.nosign hs with ⟨h1, h2⟩ | h1
    · subst h1 h2
      rw [show leaderColumns .fillInstead false = 1 from rfl, show b2n false = 0 from rfl, Nat.add_zero] at hl
      rw [hl, times_succ, List.append_nil]
      rfl
    · have h0 : leaderColumns sign neg = 0 := by
        have hne := (HC.short d.fill).1
        revert h1
        cases sign <;> cases neg <;> simp [leader, leaderColumns]
        intro h; rw [h] at hne; simp at hne
      rw [h0, show b2n false = 0 from rfl, Nat.add_zero, Nat.add_zero] at hl
      rw [hl, h1]
  · rw [if_pos rfl]
    rw [hs] at hl
    have hsd := h.signed hs
    have h1 : leaderColumns sign neg = 1 ∨ (leaderColumns sign neg = 0 ∧ leader C.encodeChar sign d.fill neg = []) := by
      cases sign <;> cases neg <;> simp [leader, leaderColumns]
    rcases h1 with h1 | ⟨_, h1⟩
    · rw [h1, show b2n true = 1 from rfl] at hl
      rw [hsd, show d'.left.toNat = before al (w - content).toNat by omega]
    · rw [h1] at hsd; simp at hsd

set_option maxHeartbeats 1000000 in
theorem hex_fill (L : Lawful D Rep) (HC : C.Lawful D Rep) {lead frac : Nat} {x : Int} (hlead : lead ≤ 1) (hx : x.natAbs < 10000)
    {f : FloatFmt} {neg : Bool} (hpad : f.pad0 ≤ 2147483647) (lay : Layout) {d : Data}
    (h : HexGood f.showpoint lead frac x (precision f.precision) f.sign neg lay.fill f.pad0 d) :
    ∃ d' r, initFill d lay.columns (max (d.sub + d.extra) d.pad0) lay.align = some (d', r) ∧ Same d d' ∧
      r.fillcount + r.content = hexWidth f lay neg lead frac x ∧
      (∀ lc point, r.content + fillSize C d'.fill r.fillcount + (if d'.showpoint then ((C.encodeChar point).length : Int) - 1 else 0) =
        (hexFormatted C.encodeChar lc point f lay neg lead frac x).length) ∧
      ∀ (p : Printer) (unitBits : Nat), p.data = d' → (p.pointSize = if p.data.showpoint then C.charSize p.point else 0) →
        Prints τ D Rep (p.print D C unitBits) (hexFormatted C.encodeChar p.lc p.point f lay neg lead frac x) := by
  have hsub := h.sub
  have hb := h.bound
  have hp0 := h.pad0
  have hcol := h.ok.columns
  have hsc := h.sg.columns
  have hlc := leaderColumns_le f.sign neg
  obtain ⟨content, hcont⟩ : ∃ n : Nat, (n : Int) = max (d.sub + d.extra) d.pad0 := ⟨(max (d.sub + d.extra) d.pad0).toNat, by omega⟩
  rw [← hcont]
  have hex := h.ok.extra
  have hdl := h.ok.lo
  have hsepv := h.ok.sep
  have hb3 : 0 ≤ b2i d.showpoint := by cases d.showpoint <;> decide
  have hsubd : d.sub = leaderColumns f.sign neg + 5 + d.sep + b2i d.showpoint + d.digcount := by omega
  obtain ⟨d', r, e, hF⟩ := fill_ok L HC f.sign neg lay.columns lay.align content d h.sg (by omega) (by omega) (by omega)
  have hcontent : content = leaderColumns f.sign neg + 2 + hexColumns f.showpoint lead frac x (precision f.precision) +
      (f.pad0 - (leaderColumns f.sign neg + 2 + hexColumns f.showpoint lead frac x (precision f.precision) : Nat)).toNat := by omega
  have hbl : ∀ lc, (hexBase lc).length = 2 := fun _ => rfl
  have hok := h.ok.same hF.same
  refine ⟨d', r, e, hF.same, ?_, ?_, ?_⟩
  · rw [hF.width]
    unfold hexWidth arrangedWidth
    rw [hbl]
    push_cast
    omega
  · intro lc point
    rw [hF.same.fill, hF.size]
    unfold hexFormatted arranged
    dsimp only
    rw [hbl, ← hcontent, h.fill]
    have htl := hexText_length lc (C.encodeChar point) f.showpoint lead frac x (precision f.precision)
    have hcl := hexText_length .lower [0x2E] f.showpoint lead frac x (precision f.precision)
    have hpt : (f.showpoint = true ∨ 0 < (hexShape lead frac (precision f.precision)).2) ↔ d'.showpoint = true := by rw [hok.point]; simp
    simp only [hpt] at htl hcl
    rw [show (hexText .lower [0x2E] f.showpoint lead frac x (precision f.precision)).length =
      hexColumns f.showpoint lead frac x (precision f.precision) from rfl] at hcl
    simp only [List.length_append, times_length, List.length_replicate, hbl]
    have hbe : before lay.align (lay.columns - (content : Int)).toNat ≤ (lay.columns - (content : Int)).toNat := by
      cases lay.align <;> simp only [before] <;> omega
    generalize hN : (lay.columns - (content : Int)).toNat = n at hbe ⊢
    have : n * (C.encodeChar lay.fill).length =
        before lay.align n * (C.encodeChar lay.fill).length + (n - before lay.align n) * (C.encodeChar lay.fill).length := by
      rw [← Nat.add_mul]; congr 1; omega
    rw [this, htl]
    clear htl hpt this
    have hsp : d'.showpoint = d.showpoint := hF.same.showpoint
    rw [hsp] at hcl ⊢
    generalize d.showpoint = b at hcl hsubd hsub hb3 ⊢
    cases b
    · simp only [Bool.false_eq_true, if_false] at hcl ⊢
      push_cast
      omega
    · simp only [if_true, List.length_cons, List.length_nil] at hcl ⊢
      push_cast
      omega
  · intro p unitBits hpd hps
    subst hpd
    have hsub' : p.data.sub = b2i p.data.showsign + 5 + p.data.sep + b2i p.data.showpoint + p.data.digcount := by
      have := hF.sub
      rw [hF.same.sep, hF.same.showpoint, hF.same.digcount]
      omega
    have hz := hF.zeros p.data.extra (by rw [hF.same.extra]; exact hex)
    rw [hF.same.extra] at hz
    have hz2 : (d.pad0 - (d.sub + d.extra)).toNat =
        (f.pad0 - (leaderColumns f.sign neg + 2 + hexColumns f.showpoint lead frac x (precision f.precision) : Nat)).toNat := by omega
    rw [hz2] at hz
    have := Prints.comp (τ := τ) (printFill_ok (τ := τ) HC p.data.left p.data.fill)
      (Prints.comp (τ := τ) (hex_prints (τ := τ) L HC p hlead hx hok hps hsub') (printFill_ok (τ := τ) HC p.data.right p.data.fill))
    rw [hF.same.extra, hz, hF.right, hF.same.fill] at this
    have htb := times_before C HC hF
    unfold hexFormatted arranged
    dsimp only
    rw [hbl, ← hcontent, ← h.fill, ← htb]
    simp only [List.append_assoc] at this ⊢
    refine prints_congr this fun s => ?_
    unfold Printer.print
    simp only [hok.form, hF.same.fill]

end Strf.Float

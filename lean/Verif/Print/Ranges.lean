import Verif.Print.Chars
/-!
# Model of ranges: include/strf/detail/printable_types/range.hpp

The elements of the range, with their format or transformed by the function given to `range`, are the items of a list:
iterating over the range twice yields the same elements (a multi-pass iterator, a pure function). The character type of the
separator is that of the destination (static_assert in 639, 653, 693).
-/
namespace Strf.Print
open Strf.Width
open Strf.Dest (Dest Lawful Prints)

variable {σ : Type}

/-- range.hpp 142–147, 214–221, 308–313, 393–400, 480–485, 553–560: the elements are measured while there is remaining width or the
size is demanded; also their count -/
def rangeMeasure : List (Item σ) → Pre → Option (Pre × Nat)
  | [], p => some (p, 0)
  | it :: its, p =>
    if p.hasRemaining || p.size.isSome then
      (it.make p).bind fun r => (rangeMeasure its r.1).map fun q => (q.1, q.2 + 1)
    else some (p, 0)

/-- range.hpp 150–157, 316–327, 488–495: operator() of the ranges without separator -/
def rangePrint (D : Dest Nat σ) : List (Item σ) → σ → Option σ
  | [], s => some s
  | it :: its, s => if D.good s then (it.print s).bind (rangePrint D its) else some s

/-- range.hpp: `PreMeasurements` is no_premeasurements: the first overload of do_premeasurements_ (123–125) is chosen -/
def Pre.idle (p : Pre) : Bool := p.size.isNone && p.acc.isNone

/-- range.hpp 99–148, 252–314, 435–486: range_printer, fmt_range_printer and transformed_range_printer -/
def range (D : Dest Nat σ) (its : List (Item σ)) : Item σ where
  make p :=
    if p.idle then some (p, rangePrint D its)
    else (rangeMeasure its p).map fun r => (r.1, rangePrint D its)

/-- range.hpp 245–248, 428–431, 584–587: the rest of the elements, each after the separator -/
def sepPrintRest (D : Dest Nat σ) (sep : List Nat) : List (Item σ) → σ → Option σ
  | [], s => some s
  | it :: its, s =>
    if D.good s then
      (Dest.write D s sep).bind fun s => (it.print s).bind (sepPrintRest D sep its)
    else some s

/-- range.hpp 238–250, 417–433, 577–589: operator() of the ranges with separator -/
def sepPrint (D : Dest Nat σ) (sep : List Nat) : List (Item σ) → σ → Option σ
  | [], s => some s
  | it :: its, s => (it.print s).bind (sepPrintRest D sep its)

/-- range.hpp 225–232, 404–411, 564–571: the width of the separators is added -/
def addSepWidth (W : WCalc) (sep : List Nat) (count : Nat) (p : Pre) : Option Pre :=
  p.remaining.bind fun lim => (W.strWidth lim sep).bind fun dw =>
    (Width.satMulU64 dw ((count - 1 : Nat) : Int)).bind p.checkedAddWidth

/-- range.hpp 208–236 separated_range_printer::do_premeasurements_ -/
def sepMeasure (W : WCalc) (sep : List Nat) (its : List (Item σ)) (p : Pre) : Option Pre :=
  (rangeMeasure its p).bind fun r =>
    if r.2 < 2 ∨ (r.1.size.isNone && !r.1.hasRemaining) then some r.1
    else (addSepWidth W sep r.2 r.1).map fun p => p.addSize ((r.2 - 1) * sep.length)

/-- range.hpp 383–415, 547–575 do_premeasurements_ of fmt_separated_range_printer and of sep_transformed_range_printer -/
def fmtSepMeasure (W : WCalc) (sep : List Nat) (its : List (Item σ)) (p : Pre) : Option Pre :=
  (rangeMeasure its p).bind fun r =>
    if r.2 < 2 then some r.1
    else (if r.1.hasRemaining then addSepWidth W sep r.2 r.1 else some r.1).map fun p =>
      p.addSize ((r.2 - 1) * sep.length)

/-- range.hpp 159–236 separated_range_printer -/
def separatedRange (D : Dest Nat σ) (W : WCalc) (sep : List Nat) (its : List (Item σ)) : Item σ where
  make p :=
    if p.idle then some (p, sepPrint D sep its) else (sepMeasure W sep its p).map fun p => (p, sepPrint D sep its)

/-- range.hpp 329–415, 497–575 fmt_separated_range_printer, sep_transformed_range_printer -/
def fmtSeparatedRange (D : Dest Nat σ) (W : WCalc) (sep : List Nat) (its : List (Item σ)) : Item σ where
  make p :=
    if p.idle then some (p, sepPrint D sep its) else (fmtSepMeasure W sep its p).map fun p => (p, sepPrint D sep its)

/-! ## Specification -/

/-- The elements, the separator between each two of them: the text, and the sum of the widths. -/
def separated (sep : List Nat) (sepw : Int) (ms : List Meaning) : Meaning :=
  ⟨sep.intercalate (ms.map (·.text)), (total ms).width + (ms.length - 1 : Nat) * sepw,
    (total ms).room + (ms.length - 1 : Nat) * sepw, (total ms).cost⟩

/-! ## Lemmas -/

variable {D : Dest Nat σ} {Rep : σ → List Nat → Prop} {W : WCalc} {Ok : List Nat → Prop} {width : List Nat → Int}
  {slack : Int} {B : Int}

/-- printing only if the destination is good -/
theorem Prints.ifGood (L : Lawful D Rep) {p : σ → Option σ} {x : List Nat} (hp : Prints τ D Rep p x) :
    Prints τ D Rep (fun s => if D.good s then p s else some s) x := by
  intro s t h
  by_cases hg : D.good s = true
  · simp only [hg, if_true]
    obtain ⟨s', e, r, g⟩ := hp s t h
    exact ⟨s', e, r, g⟩
  · simp only [hg]
    exact ⟨s, rfl, L.bad s t x h (by simpa using hg), .of_bad (by simpa using hg) id⟩

theorem rangePrint_prints (L : Lawful D Rep) {its : List (Item σ)} {ms : List Meaning} (h : AllMean τ D Rep B its ms) :
    Prints τ D Rep (rangePrint D its) (total ms).text := by
  induction h with
  | nil => exact Prints.nil
  | cons h1 _ ih => exact Prints.ifGood L (Prints.comp h1.prints ih)

theorem sepPrintRest_prints (L : Lawful D Rep) (sep : List Nat) {its : List (Item σ)} {ms : List Meaning}
    (h : AllMean τ D Rep B its ms) :
    Prints τ D Rep (sepPrintRest D sep its) ((ms.map fun m => sep ++ m.text).flatten) := by
  induction h with
  | nil => exact Prints.nil
  | cons h1 _ ih =>
    have := Prints.ifGood L (Prints.comp (L.prints_write (τ := τ) sep) (Prints.comp h1.prints ih))
    simp only [List.map_cons, List.flatten_cons, List.append_assoc] at this ⊢
    exact this

theorem intercalate_cons (sep m : List Nat) (ms : List (List Nat)) :
    sep.intercalate (m :: ms) = m ++ (ms.map fun x => sep ++ x).flatten := by
  induction ms generalizing m with
  | nil => simp [List.intercalate]
  | cons a ms ih =>
    have := ih a
    simp only [List.intercalate, List.intersperse_cons_cons, List.flatten_cons, List.map_cons, List.append_assoc] at this ⊢
    rw [this]

theorem sepPrint_prints (L : Lawful D Rep) (sep : List Nat) (sepw : Int) {its : List (Item σ)} {ms : List Meaning}
    (h : AllMean τ D Rep B its ms) : Prints τ D Rep (sepPrint D sep its) (separated sep sepw ms).text := by
  cases h with
  | nil => exact Prints.nil
  | cons h1 hs =>
    have := Prints.comp h1.prints (sepPrintRest_prints L sep hs)
    simp only [separated, List.map_cons, intercalate_cons, List.map_map]
    exact this

theorem Pre.Grown.idle {p : Pre} (n : Nat) {w c : Int} (hw : 0 ≤ w) (hc : 0 ≤ c) (hs : p.size = none)
    (h : p.hasRemaining = false) : p.Grown p n w c := by
  refine ⟨by rw [hs]; rfl, id, ?_⟩
  intro a ha
  unfold Pre.hasRemaining Acc.hasRemaining at h
  rw [ha] at h
  have : a.limit ≤ a.width := by simpa using h
  exact ⟨a, ha, rfl, by omega, by omega, by omega, by omega, by omega⟩

theorem rangeMeasure_eq {its : List (Item σ)} {ms : List Meaning} (h : AllMean τ D Rep B its ms) :
    ∀ p : Pre, p.Room (total ms).room (total ms).cost B → ∃ q k, rangeMeasure its p = some (q, k) ∧
      p.Grown q (total ms).text.length (total ms).width (total ms).cost ∧ q.size.isSome = p.size.isSome ∧
      (k = ms.length ∨ (q.size = none ∧ q.hasRemaining = false)) := by
  induction h with
  | nil => intro p _; exact ⟨p, 0, rfl, Pre.Grown.refl p, rfl, .inl rfl⟩
  | @cons it its m ms h1 hs ih =>
    intro p hp
    have h0 := h1.1
    have h2 := h1.2.1
    have h3 := h1.2.2.1
    have hn := hs.nonneg
    simp only [total] at hp ⊢
    unfold rangeMeasure
    by_cases hc : (p.hasRemaining || p.size.isSome) = true
    · rw [if_pos hc]
      obtain ⟨q, pr, e1, _, g1⟩ := h1.2.2.2 p (hp.mono (by omega) (by omega))
      obtain ⟨r, k, e2, g2, i2, d2⟩ := ih q (g1.room (by omega) h3 (by omega) h2 hp)
      rw [e1]
      simp only [Option.bind_some, e2, Option.map_some]
      refine ⟨r, k + 1, rfl, ?_, ?_, ?_⟩
      · rw [List.length_append]; exact Pre.Grown.trans (by omega) h3 g1 g2
      · rw [i2, g1.1]; cases p.size <;> rfl
      · rcases d2 with d2 | d2
        · exact .inl (by rw [d2]; rfl)
        · exact .inr d2
    · rw [if_neg hc]
      have : p.hasRemaining = false ∧ p.size = none := by simpa using hc
      exact ⟨p, 0, rfl, Pre.Grown.idle _ (by omega) (by omega) this.2 this.1, rfl, .inr ⟨this.2, this.1⟩⟩

/-- what an item measures when it measures nothing -/
theorem Pre.Grown.nothing {p : Pre} (h : p.idle = true) (n : Nat) (w c : Int) : p.Grown p n w c := by
  unfold Pre.idle at h
  simp at h
  refine ⟨by rw [h.1]; rfl, id, ?_⟩
  intro a ha; rw [h.2] at ha; cases ha

theorem range_means (L : Lawful D Rep) {its : List (Item σ)} {ms : List Meaning} (h : AllMean τ D Rep B its ms) :
    (range D its).Means τ D Rep B (total ms) := by
  refine ⟨h.nonneg.1, h.nonneg.2.1, h.nonneg.2.2, ?_⟩
  intro p hp
  unfold range
  dsimp only
  by_cases hi : p.idle = true
  · rw [if_pos hi]
    exact ⟨_, _, rfl, rangePrint_prints L h, Pre.Grown.nothing hi _ _ _⟩
  · rw [if_neg hi]
    obtain ⟨q, k, e, g, _⟩ := rangeMeasure_eq h p hp
    rw [e]
    exact ⟨_, _, rfl, rangePrint_prints L h, g⟩

theorem checkedAddWidth_grown (q : Pre) (hq : ∀ a, q.acc = some a → a.Ok) (lim dw sepw : Int) (k : Nat) (hk : 1 ≤ k)
    (hk' : k < 2 ^ 64) (hlim : q.remaining = some lim) (hw0 : 0 ≤ sepw) (hdw : StrWidthIs slack sepw lim dw) :
    ∃ r, ((Width.satMulU64 dw (k : Int)).bind q.checkedAddWidth) = some r ∧ q.Grown r 0 (k * sepw) 0 := by
  have hwm : wmax = 2147483647 := rfl
  obtain ⟨d1, d2, d3, d4, d5, d6⟩ := hdw
  rw [satMulU64_exact dw k (by unfold CInt.InI32; omega) (by unfold CInt.InU64; omega)]
  simp only [Option.bind_some]
  have hm : dw ≤ dw * (k : Int) := by
    have : dw * 1 ≤ dw * (k : Int) := Int.mul_le_mul_of_nonneg_left (by omega) d3
    omega
  have hm2 : dw * (k : Int) ≤ k * sepw := by
    rw [Int.mul_comm]; exact Int.mul_le_mul_of_nonneg_left d4 (by omega)
  have hcl : WidthSpec.clamp (dw * k) = min wmax (dw * k) := by unfold WidthSpec.clamp; omega
  have heq : sepw < lim → dw * (k : Int) = k * sepw := by intro h; rw [d1 h, Int.mul_comm]
  rw [hcl]
  generalize hx : dw * (k : Int) = x at *
  generalize hy : (k : Int) * sepw = y at *
  unfold Pre.checkedAddWidth
  cases hacc : q.acc with
  | none =>
    refine ⟨q, rfl, by cases q.size <;> simp, id, ?_⟩
    intro a ha; rw [hacc] at ha; cases ha
  | some a =>
    have hok := hq a hacc
    rw [Pre.remaining_eq hacc hok] at hlim
    cases hlim
    obtain ⟨h1, h2, h3⟩ := hok
    unfold CInt.InI32 at h3
    dsimp only
    unfold Acc.checkedAddWidth
    by_cases hc : min wmax x > 0 ∧ a.width < a.limit
    · rw [if_pos hc]
      unfold Width.sub CInt.chk32
      rw [if_pos (by omega)]
      dsimp only
      by_cases hge : min wmax x ≥ a.limit - a.width
      · rw [if_pos hge]
        refine ⟨_, rfl, by cases q.size <;> simp, (fun hn => by rw [hacc] at hn; cases hn), ?_⟩
        intro b hb; rw [hacc] at hb; cases hb
        refine ⟨_, rfl, rfl, by dsimp only; omega, by dsimp only; omega, by dsimp only; omega, ?_, fun _ => by dsimp only; omega⟩
        intro hle; dsimp only; omega
      · rw [if_neg hge]
        unfold Acc.addWidth Width.add CInt.chk32
        rw [if_pos (by omega)]
        refine ⟨_, rfl, by cases q.size <;> simp, (fun hn => by rw [hacc] at hn; cases hn), ?_⟩
        intro b hb; rw [hacc] at hb; cases hb
        have hlt : sepw < max 0 (a.limit - a.width) := by
          by_cases hs : max 0 (a.limit - a.width) ≤ sepw
          · have := d2 hs; omega
          · omega
        have := heq hlt
        refine ⟨_, rfl, rfl, by dsimp only; omega, by dsimp only; omega, by dsimp only; omega, ?_, ?_⟩
        · intro; dsimp only; omega
        · intro; dsimp only; omega
    · rw [if_neg hc]
      refine ⟨_, rfl, by cases q.size <;> simp, (fun hn => by rw [hacc] at hn; cases hn), ?_⟩
      intro b hb; rw [hacc] at hb; cases hb
      refine ⟨a, rfl, rfl, by omega, by omega, by omega, ?_, ?_⟩
      · intro hle
        by_cases hlt : sepw < max 0 (a.limit - a.width)
        · have := heq hlt; omega
        · have := d2 (by omega); omega
      · intro hle
        by_cases hlt : sepw < max 0 (a.limit - a.width)
        · have := heq hlt; omega
        · have := d2 (by omega); omega

theorem Pre.Grown.addSize {p q : Pre} {n : Nat} {w c : Int} (h : p.Grown q n w c) (k : Nat) :
    p.Grown (q.addSize k) (n + k) w c := by
  obtain ⟨h1, h2, h3⟩ := h
  refine ⟨?_, h2, h3⟩
  unfold Pre.addSize
  rw [h1]
  cases p.size <;> simp; omega

theorem Pre.Grown.ok {p q : Pre} {n : Nat} {w c r B : Int} (h : p.Grown q n w c) (hr : w ≤ r) (hroom : p.Room r c B) :
    ∀ a, q.acc = some a → a.Ok := by
  intro b hb
  obtain ⟨_, n1, a1⟩ := h
  cases ha : p.acc with
  | none => rw [n1 ha] at hb; cases hb
  | some a =>
    obtain ⟨b', hb', l1, x1, y1, z1, _, _⟩ := a1 a ha
    rw [hb'] at hb; cases hb
    obtain ⟨⟨k1, k2, k3⟩, k4, k5⟩ := hroom a ha
    exact ⟨by omega, by omega, l1 ▸ k3⟩

theorem Pre.remaining_some (q : Pre) (hq : ∀ a, q.acc = some a → a.Ok) :
    ∃ lim, q.remaining = some lim ∧ wmin ≤ lim ∧ lim ≤ wmax := by
  have hwm : wmax = 2147483647 := rfl
  have hwn : wmin = -2147483648 := rfl
  cases hacc : q.acc with
  | none => exact ⟨0, by unfold Pre.remaining; rw [hacc], by omega, by omega⟩
  | some a =>
    obtain ⟨h1, h2, h3⟩ := hq a hacc
    unfold CInt.InI32 at h3
    exact ⟨_, Pre.remaining_eq hacc ⟨h1, h2, h3⟩, by omega, by omega⟩

theorem separated_length (sep : List Nat) (sepw : Int) (ms : List Meaning) :
    (separated sep sepw ms).text.length = (total ms).text.length + (ms.length - 1) * sep.length := by
  cases ms with
  | nil => simp [separated, total, List.intercalate]
  | cons m ms =>
    have : ∀ l : List Meaning, ((l.map fun m => sep ++ m.text).flatten).length = (total l).text.length + l.length * sep.length := by
      intro l
      induction l with
      | nil => simp [total]
      | cons a l ih => simp only [List.map_cons, List.flatten_cons, List.length_append, total, ih, List.length_cons, Nat.add_mul]; omega
    have h := this ms
    simp only [separated, List.map_cons, intercalate_cons, List.map_map, total, List.length_append, List.length_cons]
    rw [show ((fun x => sep ++ x) ∘ fun x : Meaning => x.text) = fun m : Meaning => sep ++ m.text from rfl, h]
    simp; omega

/-- Ranges with separator. -/
theorem separated_means (L : Lawful D Rep) (HW : W.Measures slack Ok width) {sep : List Nat} (hsep : Ok sep)
    {its : List (Item σ)} {ms : List Meaning} (h : AllMean τ D Rep B its ms) (hn : ms.length < 2 ^ 64) :
    (separatedRange D W sep its).Means τ D Rep B (separated sep (width sep) ms) ∧
    (fmtSeparatedRange D W sep its).Means τ D Rep B (separated sep (width sep) ms) := by
  have hw0 := HW.nonneg sep
  have hmul : 0 ≤ ((ms.length - 1 : Nat) : Int) * width sep := Int.mul_nonneg (by omega) hw0
  obtain ⟨n1, n2, n3⟩ := h.nonneg
  have base : 0 ≤ (separated sep (width sep) ms).width ∧
      (separated sep (width sep) ms).width ≤ (separated sep (width sep) ms).room ∧
      0 ≤ (separated sep (width sep) ms).cost := by
    simp only [separated]; omega
  -- what is added after the elements
  have key : ∀ p : Pre, p.Room (separated sep (width sep) ms).room (separated sep (width sep) ms).cost B →
      ∃ q k, rangeMeasure its p = some (q, k) ∧
        ((k < 2 ∨ (q.size = none ∧ q.hasRemaining = false)) → p.Grown q (separated sep (width sep) ms).text.length
          (separated sep (width sep) ms).width (separated sep (width sep) ms).cost) ∧
        (¬ (q.size = none ∧ q.hasRemaining = false) → 2 ≤ k → ∃ r, addSepWidth W sep k q = some r ∧
          p.Grown (r.addSize ((k - 1) * sep.length)) (separated sep (width sep) ms).text.length
            (separated sep (width sep) ms).width (separated sep (width sep) ms).cost) ∧
        (q.hasRemaining = false → 2 ≤ k →
          p.Grown (q.addSize ((k - 1) * sep.length)) (separated sep (width sep) ms).text.length
            (separated sep (width sep) ms).width (separated sep (width sep) ms).cost) := by
    intro p hp
    have hp' : p.Room (total ms).room (total ms).cost B := by
      simp only [separated] at hp
      exact hp.mono (by omega) (by omega)
    obtain ⟨q, k, e, g, i, d⟩ := rangeMeasure_eq h p hp'
    have hok := g.ok n2 hp'
    refine ⟨q, k, e, ?_, ?_, ?_⟩
    · intro hor
      rw [separated_length]
      simp only [separated]
      rcases hor with hk | hh
      · rcases d with d | d
        · rw [show ms.length - 1 = 0 by omega]
          simpa using g
        · have := Pre.Grown.trans hmul n3 g (Pre.Grown.idle ((ms.length - 1) * sep.length) hmul (Int.le_refl 0) d.1 d.2)
          rw [Int.add_zero] at this; exact this
      · have := Pre.Grown.trans hmul n3 g (Pre.Grown.idle ((ms.length - 1) * sep.length) hmul (Int.le_refl 0) hh.1 hh.2)
        rw [Int.add_zero] at this; exact this
    · intro hnot hk
      have hkn : k = ms.length := by
        rcases d with d | d
        · exact d
        · exact absurd d hnot
      obtain ⟨lim, el, l1, l2⟩ := q.remaining_some hok
      obtain ⟨dw, edw, hdw⟩ := HW.strWidth sep hsep lim l1 l2
      obtain ⟨r, er, gr⟩ := checkedAddWidth_grown q hok lim dw (width sep) (k - 1) (by omega) (by omega) el hw0 hdw
      refine ⟨r, ?_, ?_⟩
      · unfold addSepWidth
        rw [el]
        simp only [Option.bind_some]
        rw [edw]
        simp only [Option.bind_some]
        exact er
      · have := (Pre.Grown.trans (by rw [hkn]; exact hmul) n3 g gr).addSize ((k - 1) * sep.length)
        rw [separated_length]
        simp only [separated]
        rw [Int.add_zero, Nat.add_zero, hkn] at this
        rw [hkn]; exact this
    · intro hrem hk
      rcases d with d | d
      · have gr : q.Grown q 0 (((ms.length - 1 : Nat) : Int) * width sep) 0 := by
          refine ⟨by cases q.size <;> simp, id, ?_⟩
          intro a ha
          unfold Pre.hasRemaining Acc.hasRemaining at hrem
          rw [ha] at hrem
          have : a.limit ≤ a.width := by simpa using hrem
          exact ⟨a, ha, rfl, by omega, by omega, by omega, by omega, by omega⟩
        have := (Pre.Grown.trans hmul n3 g gr).addSize ((k - 1) * sep.length)
        rw [separated_length]
        simp only [separated]
        rw [Int.add_zero, Nat.add_zero, d] at this
        rw [d]; exact this
      · have := Pre.Grown.trans hmul n3 g (Pre.Grown.idle ((ms.length - 1) * sep.length) hmul (Int.le_refl 0) d.1 d.2)
        rw [separated_length]
        simp only [separated]
        rw [Int.add_zero] at this
        have hz : q.addSize ((k - 1) * sep.length) = q := by
          unfold Pre.addSize
          have := d.1
          cases q; simp only at this; subst this; rfl
        rw [hz]; exact this
  constructor
  · refine ⟨base.1, base.2.1, base.2.2, ?_⟩
    intro p hp
    unfold separatedRange
    dsimp only
    by_cases hi : p.idle = true
    · rw [if_pos hi]; exact ⟨_, _, rfl, sepPrint_prints L sep _ h, Pre.Grown.nothing hi _ _ _⟩
    · rw [if_neg hi]
      obtain ⟨q, k, e, k1, k2, _⟩ := key p hp
      unfold sepMeasure
      rw [e]
      simp only [Option.bind_some]
      by_cases hc : k < 2 ∨ (q.size.isNone && !q.hasRemaining) = true
      · rw [if_pos hc]
        refine ⟨_, _, rfl, sepPrint_prints L sep _ h, k1 ?_⟩
        simpa using hc
      · rw [if_neg hc]
        have hc' : 2 ≤ k ∧ ¬ (q.size = none ∧ q.hasRemaining = false) := by
          simp at hc; exact ⟨by omega, by simpa using hc.2⟩
        obtain ⟨r, er, gr⟩ := k2 hc'.2 hc'.1
        rw [er]
        exact ⟨_, _, rfl, sepPrint_prints L sep _ h, gr⟩
  · refine ⟨base.1, base.2.1, base.2.2, ?_⟩
    intro p hp
    unfold fmtSeparatedRange
    dsimp only
    by_cases hi : p.idle = true
    · rw [if_pos hi]; exact ⟨_, _, rfl, sepPrint_prints L sep _ h, Pre.Grown.nothing hi _ _ _⟩
    · rw [if_neg hi]
      obtain ⟨q, k, e, k1, k2, k3⟩ := key p hp
      unfold fmtSepMeasure
      rw [e]
      simp only [Option.bind_some]
      by_cases hc : k < 2
      · rw [if_pos hc]
        exact ⟨_, _, rfl, sepPrint_prints L sep _ h, k1 (.inl hc)⟩
      · rw [if_neg hc]
        by_cases hrem : q.hasRemaining = true
        · rw [if_pos hrem]
          obtain ⟨r, er, gr⟩ := k2 (by simp [hrem]) (by omega)
          rw [er]
          exact ⟨_, _, rfl, sepPrint_prints L sep _ h, gr⟩
        · rw [if_neg hrem]
          exact ⟨_, _, rfl, sepPrint_prints L sep _ h, k3 (by simpa using hrem) (by omega)⟩

end Strf.Print

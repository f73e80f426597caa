import Verif.Print.Join
import Verif.IntPrinter.Props
/-!
Integers and booleans as items: what their printers add to the premeasurements.
-/
namespace Strf.Print
open Strf.Width
open Strf.IntPrinter Strf.IntPrinter.Spec Strf.IntDigits.Spec
open Strf.Dest (Dest Lawful Prints)

variable {σ : Type}

/-- int.hpp 1131–1132, 1143–1144, 1184–1188, 1351–1352, 1389–1390, 1429–1430, 1466–1467, 1723–1729, 1906–1913, bool.hpp
143–144, 166–172: `pre->add_width(w); pre->add_size(n)`, where the `int` `w` is converted to `width_t`, with saturation -/
def addBoth (w : Int) (n : Nat) (p : Pre) : Option Pre := (p.addWidth (Width.ofInt w)).map (·.addSize n)

/-- an item that adds a width and a size known beforehand -/
def fixed (w : Int) (n : Nat) (pr : σ → Option σ) : Item σ where
  make p := (addBoth w n p).map fun p => (p, pr)

/-- int.hpp 1097–1175, 2250–2259: an integer without format (default_int_printer) -/
def intItem (D : Dest Nat σ) (x : IntVal) : Item σ where
  make p := (DefaultInt.ofValue x).bind fun d => (fixed d.pre.width d.pre.size (d.print D)).make p

/-- int.hpp 1699–1741: an integer with a static format: int_printer_static_base_and_punct<Base, false> -/
def fmtIntItem (D : Dest Nat σ) (C : Charset σ) (lc : Lettercase) (fmt : Fmt) (a : Option AlignFmt) (x : IntVal) :
    Item σ where
  make p := (Data.make C fmt a x).bind fun r => (fixed r.2.width r.2.size (r.1.print D C fmt.base lc)).make p

/-- int.hpp 1167–1240: an integer with alignment only (aligned_default_int_printer) -/
def alignedIntItem (D : Dest Nat σ) (C : Charset σ) (a : AlignFmt) (x : IntVal) : Item σ where
  make p := (AlignedDefault.make x a).bind fun r => (fixed (r.pre C).width (r.pre C).size (r.print D C)).make p

/-- int.hpp 1849–1915: an integer with punctuation: int_printer_static_base_and_punct<Base, true> -/
def punctIntItem (D : Dest Nat σ) (C : Charset σ) (lc : Lettercase) (fmt : Fmt) (a : AlignFmt) (sep grouping : Nat)
    (x : IntVal) : Item σ where
  make p := (PData.make C fmt a sep grouping x).bind fun r =>
    (fixed r.2.width r.2.size (r.1.print D C fmt.base lc)).make p

/-! ## bool.hpp -/

/-- facets/lettercase.hpp 14–19 the values of `strf::lettercase` -/
def caseBits : Lettercase → Nat
  | .lower => 0x2020
  | .mixed => 0x0020
  | .upper => 0

/-- bool.hpp 31–44 (and 86–99): the code units stored -/
def boolUnits (lc : Lettercase) (v : Bool) : List Nat :=
  let first := caseBits lc / 256
  let others := caseBits lc &&& 0x20
  if v then [0x54 ||| first, 0x52 ||| others, 0x55 ||| others, 0x45 ||| others]
  else [0x46 ||| first, 0x41 ||| others, 0x4C ||| others, 0x53 ||| others, 0x45 ||| others]

/-- bool.hpp 27–47 bool_printer::operator() -/
def boolPrint (D : Dest Nat σ) (lc : Lettercase) (v : Bool) (s : σ) : Option σ :=
  D.poke (Dest.ensure D s (5 - b2n v)) (boolUnits lc v)

/-- bool.hpp 135–147 make_printer of a bool without format -/
def boolItem (D : Dest Nat σ) (lc : Lettercase) (v : Bool) : Item σ := fixed (5 - b2i v) (5 - b2n v) (boolPrint D lc v)

/-- bool.hpp 61–106 fmt_bool_printer::operator() -/
def fmtBoolPrint (D : Dest Nat σ) (C : Charset σ) (lc : Lettercase) (a : AlignFmt) (fillcount : Int) (v : Bool) (s : σ) :
    Option σ :=
  let left : Int := match a.align with | .left => 0 | .right => fillcount | .center => fillcount / 2
  let right : Int := if fillcount > 0 then
    (match a.align with | .left => fillcount | .right => 0 | .center => fillcount - fillcount / 2) else 0
  (if fillcount > 0 ∧ a.align ≠ .left then C.encodeFill s left a.fill else some s).bind fun s =>
  (boolPrint D lc v s).bind fun s => if right > 0 then C.encodeFill s right a.fill else some s

/-- bool.hpp 149–174 make_printer of a bool with alignment format -/
def fmtBoolItem (D : Dest Nat σ) (C : Charset σ) (lc : Lettercase) (a : AlignFmt) (v : Bool) : Item σ where
  make p :=
    let w := 5 - b2i v
    let fmtWidth := Width.round a.width
    if fmtWidth > w then
      (fixed fmtWidth (w.toNat + (fmtWidth - w).toNat * C.charSize a.fill)
        (fmtBoolPrint D C lc a (fmtWidth - w) v)).make p
    else (fixed w w.toNat (fmtBoolPrint D C lc a 0 v)).make p

/-! ## Specification -/

/-- the width of so many columns: the greatest width_t is a little less than 32768 -/
def columnsWidth (n : Nat) : Int := min wmax (n * 65536)

/-- the meaning of a text of so many columns -/
def Meaning.ofColumns (t : List Nat) (n : Nat) : Meaning := ⟨t, columnsWidth n, columnsWidth n, columnsWidth n⟩

/-- the text of a bool: the words true and false, in the letter case asked for; `mixed` has the first letter in upper
case (docs/ref_lettercase.adoc) -/
def boolText (lc : Lettercase) (v : Bool) : List Nat :=
  ((match lc, v with
    | .lower, true => "true" | .lower, false => "false"
    | .mixed, true => "True" | .mixed, false => "False"
    | .upper, true => "TRUE" | .upper, false => "FALSE") : String).toList.map Char.toNat

variable {D : Dest Nat σ} {Rep : σ → List Nat → Prop} {C : Charset σ}

theorem ofInt_columns (n : Nat) : Width.ofInt n = columnsWidth n := by
  unfold Width.ofInt columnsWidth wmax wmin CInt.i32 CInt.u32 CInt.u16
  split <;> (try split) <;> omega

theorem fixed_means (B : Int) (n : Nat) (w : Int) (hw : w = n) (k : Nat) {pr : σ → Option σ} {t : List Nat}
    (hk : k = t.length) (h : Prints τ D Rep pr t) : (fixed w k pr).Means τ D Rep B (.ofColumns t n) := by
  have hc : 0 ≤ columnsWidth n ∧ columnsWidth n ≤ wmax := by unfold columnsWidth wmax; omega
  refine ⟨hc.1, Int.le_refl _, hc.1, ?_⟩
  intro p hp
  unfold fixed addBoth Pre.addWidth
  dsimp only
  rw [hw, ofInt_columns]
  simp only [Meaning.ofColumns] at hp ⊢
  have hwm : wmax = 2147483647 := rfl
  cases hacc : p.acc with
  | none =>
    refine ⟨_, _, rfl, h, ?_, fun _ => hacc, ?_⟩
    · rw [hk]; rfl
    · intro a ha; rw [hacc] at ha; cases ha
  | some b =>
    obtain ⟨⟨h1, h2, h3⟩, h4, h5⟩ := hp b hacc
    unfold Acc.addWidth Width.add CInt.chk32
    dsimp only
    rw [if_pos (by omega)]
    refine ⟨_, _, rfl, h, ?_, (fun hn => by rw [hacc] at hn; cases hn), ?_⟩
    · rw [hk]; rfl
    · intro a ha
      rw [hacc] at ha; cases ha
      exact ⟨_, rfl, rfl, by dsimp only; omega, by dsimp only; omega, by dsimp only; omega, fun _ => rfl, fun _ => by dsimp only; omega⟩

/-- integers without format -/
theorem intItem_means (L : Lawful D Rep) (B : Int) (enc : Nat → List Nat) (lc : Lettercase) (x : IntVal) (hx : x.Ok) :
    (intItem D x).Means τ D Rep B
      (.ofColumns (formatted enc lc [] [] false defaultFmt .none x) (Spec.width [] false defaultFmt .none x)) := by
  obtain ⟨d, e, h1, h2, h3⟩ := default_int_exact L enc lc x hx
  unfold intItem
  rw [e]
  exact fixed_means B _ _ h2 _ h3 h1

/-- integers with formats -/
theorem fmtIntItem_means (L : Lawful D Rep) (HC : C.Lawful D Rep) (B : Int) (fmt : Fmt) (hf : Fmt.Ok fmt)
    (a : Option AlignFmt) (lay : Layout) (hl : match a with | none => lay = Layout.none | some a => LayoutOf a lay)
    (lc : Lettercase) (x : IntVal) (hx : x.Ok) :
    (fmtIntItem D C lc fmt a x).Means τ D Rep B
      (.ofColumns (formatted C.encodeChar lc [] [] false fmt lay x) (Spec.width [] false fmt lay x)) := by
  obtain ⟨d, pre, e, h1, h2, h3⟩ := fmt_int_exact L HC fmt hf a lay hl lc x hx
  unfold fmtIntItem
  rw [e]
  exact fixed_means B _ _ h2 _ h3 h1

/-- integers with alignment -/
theorem alignedIntItem_means (L : Lawful D Rep) (HC : C.Lawful D Rep) (B : Int) (lc : Lettercase) (a : AlignFmt)
    (lay : Layout) (hl : LayoutOf a lay) (x : IntVal) (hx : x.Ok) :
    (alignedIntItem D C a x).Means τ D Rep B
      (.ofColumns (formatted C.encodeChar lc [] [] false defaultFmt lay x) (Spec.width [] false defaultFmt lay x)) := by
  obtain ⟨p, e, h1, h2, h3⟩ := aligned_default_int_exact L HC lc a lay hl x hx
  unfold alignedIntItem
  rw [e]
  exact fixed_means B _ _ h2 _ h3 h1

/-- integers with punctuation -/
theorem punctIntItem_means (L : Lawful D Rep) (HC : C.Lawful D Rep) (B : Int) (fmt : Fmt) (hf : Fmt.Ok fmt) (a : AlignFmt)
    (lay : Layout) (hl : LayoutOf a lay) (lc : Lettercase) (gs : List Nat) (rep : Bool) (hg : Numpunct.Spec.Valid gs rep)
    (sepchar : Nat) (x : IntVal) (hx : x.Ok) (hs : SepOk C sepchar (groups gs rep fmt x).length)
    (h2 : fmt.base ≠ 2 ∨ (C.encodeChar sepchar).length ≠ 1 ∨ (groups gs rep fmt x).length = 1) :
    (punctIntItem D C lc fmt a sepchar (Numpunct.ctor2 (Numpunct.Spec.args gs rep)) x).Means τ D Rep B
      (.ofColumns (formatted C.encodeChar lc (C.encodeChar sepchar) gs rep fmt lay x) (Spec.width gs rep fmt lay x)) := by
  obtain ⟨p, pre, e, h1, h2, h3⟩ := punct_int_exact_partial L HC fmt hf a lay hl lc gs rep hg sepchar x hx hs h2
  unfold punctIntItem
  rw [e]
  exact fixed_means B _ _ h2 _ h3 h1

theorem boolUnits_eq (lc : Lettercase) (v : Bool) : boolUnits lc v = boolText lc v := by
  cases lc <;> cases v <;> decide

theorem boolPrint_prints (L : Lawful D Rep) (lc : Lettercase) (v : Bool) : Prints τ D Rep (boolPrint D lc v) (boolText lc v) := by
  have := L.prints_raw (τ := τ) (5 - b2n v) (boolText lc v) (by cases lc <;> cases v <;> decide) (by omega)
  rw [← boolUnits_eq] at this ⊢
  exact this

/-- booleans without format -/
theorem boolItem_means (L : Lawful D Rep) (B : Int) (lc : Lettercase) (v : Bool) :
    (boolItem D lc v).Means τ D Rep B (.ofColumns (boolText lc v) (boolText lc v).length) := by
  refine fixed_means B _ _ ?_ _ ?_ (boolPrint_prints L lc v) <;> cases lc <;> cases v <;> decide

/-- booleans with alignment: the fill characters missing to the rounded width -/
theorem fmtBoolItem_means (L : Lawful D Rep) (HC : C.Lawful D Rep) (B : Int) (lc : Lettercase) (a : AlignFmt)
    (lay : Layout) (hl : LayoutOf a lay) (v : Bool) (n : Nat) (hn : n = (lay.columns - (boolText lc v).length).toNat) :
    (fmtBoolItem D C lc a v).Means τ D Rep B
      (.ofColumns (padded C.encodeChar a n (boolText lc v)) ((boolText lc v).length + n)) := by
  have hr := IntPrinter.isRound_unique _ _ _ hl.2.2.2 (Width.round_correct a.width hl.2.2.1)
  have hlen : ((boolText lc v).length : Int) = 5 - b2i v := by cases lc <;> cases v <;> decide
  have hpr : Prints τ D Rep (fmtBoolPrint D C lc a n v) (padded C.encodeChar a n (boolText lc v)) := by
    have hb := boolPrint_prints (τ := τ) (D := D) L lc v
    have := alignedPrint_prints HC a n hb
    intro s t hrep
    obtain ⟨s', e, r⟩ := this s t hrep
    refine ⟨s', ?_, r⟩
    rw [← e]
    unfold fmtBoolPrint alignedPrint
    by_cases h0 : (n : Int) ≤ 0
    · have : ¬ (n : Int) > 0 := by omega
      simp only [this, false_and, if_false, if_pos h0, Option.bind_some, gt_iff_lt, Int.lt_irrefl]
      cases boolPrint D lc v s <;> rfl
    · have hpos : (n : Int) > 0 := by omega
      rw [if_neg h0]
      cases ha : a.align with
      | left => simp [show 0 < n by omega]
      | right => 
        simp [show 0 < n by omega]
      | center => 
        have : 0 < (n : Int) - (n : Int) / 2 := by omega
        simp [show 0 < n by omega, show (n : Int) / 2 < n by omega]
  unfold fmtBoolItem
  dsimp only
  by_cases hgt : Width.round a.width > 5 - b2i v
  · have hnn : Width.round a.width - (5 - b2i v) = (n : Int) := by rw [hn]; omega
    have := fixed_means (D := D) (Rep := Rep) B ((boolText lc v).length + n) (Width.round a.width) (by omega)
      ((5 - b2i v).toNat + (Width.round a.width - (5 - b2i v)).toNat * C.charSize a.fill)
      (by rw [padded_length HC, hnn]; rw [← hlen]; simp) hpr
    refine ⟨this.1, this.2.1, this.2.2.1, ?_⟩
    intro p hp
    dsimp only
    rw [if_pos hgt]
    rw [hnn] at this ⊢
    exact this.2.2.2 p hp
  · have hnn : n = 0 := by rw [hn]; omega
    subst hnn
    have := fixed_means (D := D) (Rep := Rep) B ((boolText lc v).length + 0) (5 - b2i v) (by omega)
      ((5 - b2i v).toNat) (by rw [padded_length HC]; omega) hpr
    refine ⟨this.1, this.2.1, this.2.2.1, ?_⟩
    intro p hp
    dsimp only
    rw [if_neg hgt]
    exact this.2.2.2 p hp

end Strf.Print

import Verif.Print.Ints
import Verif.Charset.Props
import Verif.WidthCalc.Props
/-!
# Model of the string printers: include/strf/detail/printable_types/string.hpp

The printers are generic in the width calculator, the charset of the string and the way the text is written
(copied, transcoded directly or through UTF-32): `WCalc` and `Content` are what they use of these.
-/
namespace Strf.Print
open Strf.Width
open Strf.IntPrinter (AlignFmt)
open Strf.Charset (Func SizeFunc transcodeTo decodeEncodeTo decodeEncodeSize)
open Strf.Dest (Dest Lawful Prints)

variable {σ : Type}

/-- facets/width_calculator.hpp 405–530: What the string printers use of a width calculator, for strings of a given charset: str_width(charset, limit, …) and
str_width_and_pos(charset, limit, …), whose position is given as the rest of the string (docs/ref_width.adoc). -/
structure WCalc where
  strWidth : Int → List Nat → Option Int
  strWidthPos : Int → List Nat → Option (Int × List Nat)

/-- string.hpp 526–1394: How the text of a string gets to the destination, and its size. -/
structure Content (σ : Type) where
  write : List Nat → σ → Option σ
  size : List Nat → Option Nat

/-- facets/charset.hpp 229: strf::ssize_max -/
def ssizeMax : Nat := 2 ^ 63 - 1

/-- string.hpp 616–621, 548, 574, 595: the string is copied with output_buffer_interchar_copy (for equal character types) -/
abbrev Content.copy (D : Dest Nat σ) : Content σ where
  write src s := Dest.write D s src
  size src := some src.length

/-- string.hpp 616–621: for different character types of the same size; the values are the same -/
abbrev Content.copyOther (D : Dest Nat σ) : Content σ where
  write src s := Dest.intercharCopy D id s src
  size src := some src.length

/-- string.hpp 858, 869–870, 912–914 (and in the other printers): a transcoder from the one charset to the other exists -/
abbrev Content.direct (D : Dest Nat σ) (func : Func) (size : SizeFunc) : Content σ where
  write src s := (transcodeTo D func s src).map (·.1)
  size src := (size ssizeMax src).map (·.size)

/-- string.hpp 859–863, 871–876, 915–918: there is none, and the text passes through UTF-32; `pivot` is 16 in decode_encode_size (871–876, 1061–1066)
and 32 in unsafe_decode_encode_size (1170–1175, 1362–1367) -/
abbrev Content.pivot (D : Dest Nat σ) (pivot : Nat) (toU32 fromU32 : Func) (size : SizeFunc) : Content σ where
  write src s := (decodeEncodeTo D toU32 fromU32 s src).map (·.1)
  size src := (decodeEncodeSize pivot toU32 size (src.length + 1) ssizeMax src).map (·.count)

/-- string.hpp 548, 574, 595, 705–719, 864–879: the size is added if it is demanded -/
def addContentSize (X : Content σ) (src : List Nat) (p : Pre) : Option Pre :=
  if p.size.isSome then (X.size src).map p.addSize else some p

/-- string.hpp 532–549, 551–575: strcpy_printer without precision: the width is calculated if it is demanded -/
def copyString (W : WCalc) (X : Content σ) (src : List Nat) : Item σ where
  make p :=
    (if p.acc.isSome then p.remaining.bind fun lim => (W.strWidth lim src).bind p.addWidth else some p).bind fun p =>
      (addContentSize X src p).map fun p => (p, X.write src)

/-- string.hpp 799–822: transcode_printer without precision, and 1100–1122 unsafe_transcode_printer: the width is calculated if
there is remaining width -/
def transcodeString (W : WCalc) (X : Content σ) (src : List Nat) : Item σ where
  make p :=
    (if p.hasRemaining then p.remaining.bind fun lim => (W.strWidth lim src).bind p.addWidth else some p).bind fun p =>
      (addContentSize X src p).map fun p => (p, X.write src)

/-- string.hpp 577–596, 824–846, 1124–1145: a string with precision -/
def preciseString (W : WCalc) (X : Content σ) (precision : Int) (src : List Nat) : Item σ where
  make p :=
    (W.strWidthPos precision src).bind fun r =>
      let text := src.take (src.length - r.2.length)
      (p.addWidth r.1).bind fun p => (addContentSize X text p).map fun p => (p, X.write text)

/-- string.hpp 721–750, 1029–1053, 1330–1354: init_: the fill count, and the widths added -/
def alignedInit (a : AlignFmt) (strw : Int) (p : Pre) : Option (Pre × Int) :=
  if a.width > strw then
    (Width.sub a.width strw).bind fun d =>
      (p.addWidth strw).bind fun p => (p.addWidth (Width.ofInt (Width.round d))).map fun p => (p, Width.round d)
  else (p.addWidth strw).map fun p => (p, 0)

/-- string.hpp 705–764, 1014–1093, 1315–1394: fill counts, sizes and call operator of the aligned printers, once the width of the string is
known -/
def alignedMake (C : Charset σ) (X : Content σ) (a : AlignFmt) (strw : Int) (text : List Nat) (p : Pre) :
    Option (Pre × (σ → Option σ)) :=
  (alignedInit a strw p).bind fun r =>
    (addContentSize X text r.1).map fun p =>
      (if r.2 > 0 then p.addSize (r.2.toNat * C.charSize a.fill) else p, alignedPrint C a r.2 (X.write text))

/-- string.hpp 646–650, 943–946, 1244–1247: the limit of the width calculation of an aligned string -/
def alignedLimit (a : AlignFmt) (p : Pre) : Option Int :=
  (p.remainingGreater a.width).bind fun g => if g then p.remaining else some a.width

/-- string.hpp 629–655, 926–950, 1227–1251: an aligned string without precision -/
def alignedString (C : Charset σ) (W : WCalc) (X : Content σ) (a : AlignFmt) (src : List Nat) : Item σ where
  make p :=
    (alignedLimit a p).bind fun lim => (W.strWidth lim src).bind fun strw => alignedMake C X a strw src p

/-- string.hpp 657–679, 952–974, 1253–1275: an aligned string with precision -/
def alignedPreciseString (C : Charset σ) (W : WCalc) (X : Content σ) (a : AlignFmt) (precision : Int) (src : List Nat) :
    Item σ where
  make p :=
    (W.strWidthPos precision src).bind fun r =>
      alignedMake C X a r.1 (src.take (src.length - r.2.length)) p

/-! ## What is expected of the width calculator and of the content -/

/-- docs/ref_width.adoc 76–86: `r` is a right answer of `str_width` for a text of width `w`; moreover it is not more than
`w`, and exceeds the limit by no more than `slack`. -/
def StrWidthIs (slack w limit r : Int) : Prop :=
  (w < limit → r = w) ∧ (limit ≤ w → limit ≤ r) ∧ 0 ≤ r ∧ r ≤ w ∧ r ≤ max 0 limit + slack ∧ r ≤ wmax

/-- The width calculator measures the strings `src` with `Ok src`: their width is `width src` -/
structure WCalc.Measures (W : WCalc) (slack : Int) (Ok : List Nat → Prop) (width : List Nat → Int) : Prop where
  slack0 : 0 ≤ slack
  nonneg : ∀ src, 0 ≤ width src
  strWidth : ∀ src, Ok src → ∀ limit, wmin ≤ limit → limit ≤ wmax →
    ∃ r, W.strWidth limit src = some r ∧ StrWidthIs slack (width src) limit r

/-- The content of the strings `src` with `Ok src` is the text `txt src` -/
structure Content.Lawful (D : Dest Nat σ) (Rep : σ → List Nat → Prop) (X : Content σ) (Ok : List Nat → Prop)
    (txt : List Nat → List Nat) : Prop where
  printsTight : ∀ src, Ok src → Prints true D Rep (X.write src) (txt src)
  size : ∀ src, Ok src → (txt src).length < ssizeMax → X.size src = some (txt src).length

theorem Content.Lawful.prints {D : Dest Nat σ} {Rep : σ → List Nat → Prop} {X : Content σ} {Ok : List Nat → Prop} {τ : Bool}
    {txt : List Nat → List Nat} (H : X.Lawful D Rep Ok txt) (src : List Nat) (h : Ok src) : Prints τ D Rep (X.write src) (txt src) :=
  (H.printsTight src h).any

/-- an aligned text: the room is what the calculation of the width needs -/
def Meaning.aligned (t : List Nat) (w slack : Int) (enc : Nat → List Nat) (a : AlignFmt) (n : Nat) : Meaning :=
  ⟨padded enc a n t, w + n * 65536, max (max 0 a.width) (w + n * 65536), max 0 a.width + 65536 + slack⟩

variable {D : Dest Nat σ} {Rep : σ → List Nat → Prop} {C : Charset σ} {W : WCalc} {X : Content σ}
  {Ok : List Nat → Prop} {width : List Nat → Int} {txt : List Nat → List Nat} {slack : Int}

theorem addContentSize_eq (HX : X.Lawful D Rep Ok txt) {src : List Nat} (h : Ok src) (hs : (txt src).length < ssizeMax)
    (p : Pre) : addContentSize X src p = some (p.addSize (txt src).length) := by
  unfold addContentSize
  rw [HX.size src h hs]
  cases hp : p.size with
  | none =>
    rw [if_neg (by simp)]
    unfold Pre.addSize
    rw [hp]
    simp only [Option.map_none]
    cases p
    simp only at hp
    rw [hp]
  | some z => rfl

theorem Pre.remaining_eq {p : Pre} {a : Acc} (ha : p.acc = some a) (h : a.Ok) :
    p.remaining = some (max 0 (a.limit - a.width)) := by
  obtain ⟨h1, h2, h3⟩ := h
  unfold CInt.InI32 at h3
  have hwm : wmax = 2147483647 := rfl
  unfold Pre.remaining Acc.remaining
  rw [ha]
  dsimp only
  by_cases hle : a.width ≤ a.limit
  · rw [if_pos hle]
    unfold Width.sub CInt.chk32
    rw [if_pos (by omega)]
    congr 1; omega
  · rw [if_neg hle]; congr 1; omega

theorem Pre.addWidth_eq {p : Pre} {a : Acc} (ha : p.acc = some a) (w : Int) (h : CInt.InI32 (a.width + w)) :
    p.addWidth w = some ⟨p.size, some { a with width := a.width + w }⟩ := by
  unfold CInt.InI32 at h
  unfold Pre.addWidth
  rw [ha]
  simp only [Acc.addWidth, Width.add, CInt.chk32]
  rw [if_pos (by omega)]
  rfl

theorem Pre.addWidth_none {p : Pre} (ha : p.acc = none) (w : Int) : p.addWidth w = some p := by
  unfold Pre.addWidth; rw [ha]

/-- Strings without alignment and precision: both printers. -/
theorem string_means (HW : W.Measures slack Ok width) (HX : X.Lawful D Rep Ok txt) (B : Int) {src : List Nat} (h : Ok src)
    (hs : (txt src).length < ssizeMax) :
    (copyString W X src).Means τ D Rep B ⟨txt src, width src, width src, slack⟩ ∧
    (transcodeString W X src).Means τ D Rep B ⟨txt src, width src, width src, slack⟩ := by
  have hw0 := HW.nonneg src
  have key : ∀ (p : Pre), p.Room (width src) slack B → ∀ c : Bool, (c = false → p.acc = none ∨ ∃ a, p.acc = some a ∧ a.limit ≤ a.width) →
      ∃ p' pr, ((if c = true ∧ p.acc.isSome then p.remaining.bind fun lim => (W.strWidth lim src).bind p.addWidth else some p).bind fun p =>
      (addContentSize X src p).map fun p => (p, X.write src)) = some (p', pr) ∧ Prints τ D Rep pr (txt src) ∧
        p.Grown p' (txt src).length (width src) slack := by
    intro p hp c hc
    have hwm : wmax = 2147483647 := rfl
    have hwn : wmin = -2147483648 := rfl
    cases hacc : p.acc with
    | none =>
      rw [if_neg (by simp)]
      simp only [Option.bind_some, addContentSize_eq HX h hs, Option.map_some]
      refine ⟨_, _, rfl, HX.prints src h, rfl, fun _ => hacc, ?_⟩
      intro a ha; rw [hacc] at ha; cases ha
    | some b =>
      obtain ⟨hb, hb4, hb5⟩ := hp b hacc
      have hb' := hb
      obtain ⟨hb1, hb2, hb3⟩ := hb'
      unfold CInt.InI32 at hb3
      by_cases hct : c = true
      · rw [if_pos ⟨hct, rfl⟩, Pre.remaining_eq hacc hb]
        simp only [Option.bind_some]
        obtain ⟨r, e, r1, r2, r3, r4, r5, r6⟩ := HW.strWidth src h (max 0 (b.limit - b.width)) (by omega) (by omega)
        have hs0 := HW.slack0
        rw [e]
        simp only [Option.bind_some]
        rw [Pre.addWidth_eq hacc r (by unfold CInt.InI32; omega)]
        simp only [Option.bind_some, addContentSize_eq HX h hs, Option.map_some]
        refine ⟨_, _, rfl, HX.prints src h, rfl, (fun hn => by rw [hacc] at hn; cases hn), ?_⟩
        intro a ha
        rw [hacc] at ha; cases ha
        refine ⟨_, rfl, rfl, by dsimp only; omega, by dsimp only; omega, by dsimp only; omega, ?_, ?_⟩
        · intro hh
          dsimp only
          by_cases hlt : width src < max 0 (b.limit - b.width)
          · rw [r1 hlt]
          · have := r2 (by omega); omega
        · intro hh
          dsimp only
          by_cases hlt : width src < max 0 (b.limit - b.width)
          · rw [r1 hlt]; omega
          · have := r2 (by omega); omega
      · rw [if_neg (by simp [hct])]
        simp only [Option.bind_some, addContentSize_eq HX h hs, Option.map_some]
        have hs0 := HW.slack0
        rcases hc (by simpa using hct) with g | ⟨a, g1, g2⟩
        · rw [hacc] at g; cases g
        · rw [hacc] at g1; cases g1
          refine ⟨_, _, rfl, HX.prints src h, rfl, (fun hn => by rw [hacc] at hn; cases hn), ?_⟩
          intro a ha
          rw [hacc] at ha; cases ha
          exact ⟨b, hacc, rfl, by omega, by omega, by omega, by omega, by omega⟩
  constructor
  · refine ⟨hw0, Int.le_refl _, HW.slack0, ?_⟩
    intro p hp
    obtain ⟨p', pr, e, r⟩ := key p hp true (by simp)
    refine ⟨p', pr, ?_, r⟩
    unfold copyString
    simpa using e
  · refine ⟨hw0, Int.le_refl _, HW.slack0, ?_⟩
    intro p hp
    obtain ⟨p', pr, e, r⟩ := key p hp p.hasRemaining (by
      intro hf
      unfold Pre.hasRemaining Acc.hasRemaining at hf
      cases hacc : p.acc with
      | none => exact .inl rfl
      | some a => rw [hacc] at hf; simp at hf; exact .inr ⟨a, rfl, hf⟩)
    refine ⟨p', pr, ?_, r⟩
    unfold transcodeString
    dsimp only
    rw [← e]
    by_cases hr : p.hasRemaining = true
    · have : p.acc.isSome = true := by
        unfold Pre.hasRemaining at hr
        cases hacc : p.acc with
        | none => rw [hacc] at hr; cases hr
        | some a => rfl
      rw [if_pos hr, if_pos ⟨hr, this⟩]
    · rw [if_neg hr, if_neg (fun g => hr g.1)]

/-- What the aligned printers do once the width of the text is known. `strw` is the exact width of the text, or at least
that of the alignment and not more than `m`. -/
theorem alignedMake_eq (HC : C.Lawful D Rep) (HX : X.Lawful D Rep Ok txt) (a : AlignFmt) (ha : CInt.InI32 a.width)
    {text : List Nat} (h : Ok text) (hs : (txt text).length < ssizeMax) (strw w : Int) (n : Nat)
    (h0 : 0 ≤ strw) (h1 : strw ≤ w) (h1' : strw ≤ wmax) (h2 : strw < a.width → strw = w) (hn : FillCount a.width w n) (p : Pre)
    (hp : ∀ b, p.acc = some b → b.Ok ∧ b.width + strw + n * 65536 ≤ wmax) :
    ∃ p' pr, alignedMake C X a strw text p = some (p', pr) ∧ Prints τ D Rep pr (padded C.encodeChar a n (txt text)) ∧
      p'.size = p.size.map (· + (padded C.encodeChar a n (txt text)).length) ∧
      p'.acc = p.acc.map fun b => { b with width := b.width + (strw + n * 65536) } := by
  obtain ⟨hu1, hu2⟩ := fillCount_unique hn
  have hwm : wmax = 2147483647 := rfl
  unfold CInt.InI32 at ha
  have hinit : ∃ q, alignedInit a strw p = some (q, (n : Int)) ∧ q.size = p.size ∧
      q.acc = p.acc.map fun b => { b with width := b.width + (strw + n * 65536) } := by
    unfold alignedInit
    by_cases hlt : a.width > strw
    · rw [if_pos hlt]
      unfold Width.sub CInt.chk32
      rw [if_pos (by omega)]
      simp only [Option.bind_some]
      have hw := h2 (by omega)
      subst hw
      have hr : Width.round (a.width - strw) = n :=
        hu1 (by omega) _ (Width.round_correct _ (by unfold CInt.InI32; omega))
      rw [hr]
      cases hacc : p.acc with
      | none =>
        rw [Pre.addWidth_none hacc]
        simp only [Option.bind_some]
        rw [Pre.addWidth_none hacc]
        exact ⟨p, rfl, rfl, by rw [hacc]; rfl⟩
      | some b =>
        obtain ⟨⟨b1, b2, b3⟩, b4⟩ := hp b hacc
        rw [Pre.addWidth_eq hacc strw (by unfold CInt.InI32; omega)]
        simp only [Option.bind_some]
        have hof : Width.ofInt (n : Int) = n * 65536 := by rw [ofInt_columns]; unfold columnsWidth; omega
        rw [hof, Pre.addWidth_eq (a := { b with width := b.width + strw }) rfl _ (by unfold CInt.InI32; dsimp only; omega)]
        refine ⟨_, rfl, rfl, ?_⟩
        simp only [Option.map_some]
        congr 2
        omega
    · rw [if_neg hlt]
      have hn0 : n = 0 := hu2 (by omega)
      subst hn0
      cases hacc : p.acc with
      | none =>
        rw [Pre.addWidth_none hacc]
        exact ⟨p, rfl, rfl, by rw [hacc]; rfl⟩
      | some b =>
        obtain ⟨⟨b1, b2, b3⟩, b4⟩ := hp b hacc
        rw [Pre.addWidth_eq hacc strw (by unfold CInt.InI32; omega)]
        refine ⟨_, rfl, rfl, ?_⟩
        simp only [Option.map_some]
        congr 2
        omega
  obtain ⟨q, e, q1, q2⟩ := hinit
  unfold alignedMake
  rw [e]
  simp only [Option.bind_some, addContentSize_eq HX h hs, Option.map_some]
  refine ⟨_, _, rfl, alignedPrint_prints HC a n (HX.prints text h), ?_, ?_⟩
  · rw [padded_length HC]
    by_cases hn0 : (n : Int) > 0
    · rw [if_pos hn0]
      unfold Pre.addSize
      simp only [q1, Int.toNat_natCast]
      cases p.size with
      | none => rfl
      | some z => simp only [Option.map_some]; congr 1; omega
    · rw [if_neg hn0]
      have : n = 0 := by omega
      subst this
      unfold Pre.addSize
      simp only [q1]
      cases p.size with
      | none => rfl
      | some z => simp only [Option.map_some]; congr 1; omega
  · by_cases hn0 : (n : Int) > 0
    · rw [if_pos hn0]; exact q2
    · rw [if_neg hn0]; exact q2

/-- Strings with alignment. -/
theorem alignedString_means (HC : C.Lawful D Rep) (HW : W.Measures slack Ok width) (HX : X.Lawful D Rep Ok txt) (B : Int)
    (a : AlignFmt) (ha : CInt.InI32 a.width) {src : List Nat} (h : Ok src)
    (hs : (txt src).length < ssizeMax) (n : Nat) (hn : FillCount a.width (width src) n) :
    (alignedString C W X a src).Means τ D Rep B (.aligned (txt src) (width src) slack C.encodeChar a n) := by
  have hw0 := HW.nonneg src
  have hs0 := HW.slack0
  refine ⟨by simp only [Meaning.aligned]; omega, by simp only [Meaning.aligned]; omega,
    by simp only [Meaning.aligned]; omega, ?_⟩
  intro p hp
  simp only [Meaning.aligned] at hp ⊢
  have hwm : wmax = 2147483647 := rfl
  have hwn : wmin = -2147483648 := rfl
  have ha' := ha
  unfold CInt.InI32 at ha'
  have hnb : n = 0 ∨ (width src < a.width ∧ width src + n * 65536 ≤ a.width + 32768) := by
    unfold FillCount WidthSpec.IsRound at hn; split at hn <;> omega
  -- the limit
  obtain ⟨lim, elim, hlim1, hlim2, hlim3⟩ : ∃ lim, alignedLimit a p = some lim ∧ a.width ≤ lim ∧ lim ≤ wmax ∧
      ∀ b, p.acc = some b → b.limit ≤ b.width + lim ∧ b.width + max 0 lim ≤ max b.limit (b.width + max 0 a.width) := by
    unfold alignedLimit
    cases hacc : p.acc with
    | none =>
      unfold Pre.remainingGreater
      rw [hacc]
      exact ⟨a.width, by simp, by omega, by omega, by intro b hb; cases hb⟩
    | some b =>
      obtain ⟨hb, hb4, hb5⟩ := hp b hacc
      have hb' := hb
      obtain ⟨hb1, hb2, hb3⟩ := hb'
      unfold CInt.InI32 at hb3
      unfold Pre.remainingGreater
      rw [Pre.remaining_eq hacc hb, hacc]
      simp only [Acc.remainingGreater, Width.add, CInt.chk32]
      rw [if_pos (by omega)]
      simp only [Option.map_some, Option.bind_some, decide_eq_true_eq]
      by_cases hlt : b.width + a.width < b.limit
      · rw [if_pos hlt]
        refine ⟨_, rfl, by omega, by omega, ?_⟩
        intro c hc; cases hc; omega
      · rw [if_neg hlt]
        refine ⟨_, rfl, by omega, by omega, ?_⟩
        intro c hc; cases hc; omega
  obtain ⟨r, er, r1, r2, r3, r4, r5, r6⟩ := HW.strWidth src h lim (by omega) (by omega)
  have hexact : r < a.width → r = width src := by
    intro hlt
    by_cases hh : width src < lim
    · exact r1 hh
    · have := r2 (by omega); omega
  unfold alignedString
  dsimp only
  rw [elim]
  simp only [Option.bind_some]
  rw [er]
  simp only [Option.bind_some]
  have hrn : n = 0 ∨ r + n * 65536 ≤ max 0 a.width + 32768 := by omega
  obtain ⟨p', pr, e, hpr, s1, s2⟩ := alignedMake_eq HC HX a ha h hs r (width src) n r3 r4 r6 hexact hn p (by
    intro b hb
    obtain ⟨k, k4, k5⟩ := hp b hb
    have := hlim3 b hb
    have := k.1
    have := k.2.1
    exact ⟨k, by omega⟩)
  refine ⟨p', pr, e, hpr, s1, (fun g => by rw [s2, g]; rfl), ?_⟩
  intro b hb
  obtain ⟨k, k4, k5⟩ := hp b hb
  have hl := hlim3 b hb
  rw [hb] at s2
  refine ⟨_, s2, rfl, by dsimp only; omega, by dsimp only; omega, by dsimp only; omega, ?_, ?_⟩
  · intro hh
    dsimp only
    by_cases hlt : width src < lim
    · rw [r1 hlt]
    · have := r2 (by omega); omega
  · intro hh
    dsimp only
    by_cases hlt : width src < lim
    · rw [r1 hlt]; exact hh
    · have := r2 (by omega); omega

/-- Strings with precision; `w` is the width that the width calculator gives for what is kept. -/
theorem preciseString_means (HX : X.Lawful D Rep Ok txt) (B : Int) (precision : Int) {src x y : List Nat} (h : Ok x)
    (hsrc : src = x ++ y) (w : Int) (h0 : 0 ≤ w) (h1 : w ≤ wmax)
    (hpos : W.strWidthPos precision src = some (w, y)) (hs : (txt x).length < ssizeMax) :
    (preciseString W X precision src).Means τ D Rep B ⟨txt x, w, w, w⟩ := by
  refine ⟨h0, Int.le_refl _, h0, ?_⟩
  intro p hp
  have hwm : wmax = 2147483647 := rfl
  unfold preciseString
  dsimp only at hp ⊢
  rw [hpos]
  have htk : src.take (src.length - y.length) = x := by rw [hsrc]; simp
  simp only [Option.bind_some, htk]
  cases hacc : p.acc with
  | none =>
    rw [Pre.addWidth_none hacc]
    simp only [Option.bind_some, addContentSize_eq HX h hs, Option.map_some]
    refine ⟨_, _, rfl, HX.prints x h, rfl, fun _ => hacc, ?_⟩
    intro a ha; rw [hacc] at ha; cases ha
  | some b =>
    obtain ⟨⟨hb1, hb2, hb3⟩, hb4, hb5⟩ := hp b hacc
    rw [Pre.addWidth_eq hacc w (by unfold CInt.InI32; omega)]
    simp only [Option.bind_some, addContentSize_eq HX h hs, Option.map_some]
    refine ⟨_, _, rfl, HX.prints x h, rfl, (fun hn => by rw [hacc] at hn; cases hn), ?_⟩
    intro a ha
    rw [hacc] at ha; cases ha
    exact ⟨_, rfl, rfl, by dsimp only; omega, by dsimp only; omega, by dsimp only; omega, fun _ => rfl, fun g => g⟩

/-- Strings with precision and alignment; `w` is the width that the width calculator gives for what is kept. -/
theorem alignedPreciseString_means (HC : C.Lawful D Rep) (HX : X.Lawful D Rep Ok txt) (B : Int) (a : AlignFmt)
    (ha : CInt.InI32 a.width) (precision : Int) {src x y : List Nat} (h : Ok x)
    (hsrc : src = x ++ y) (w : Int) (h0 : 0 ≤ w) (h1 : w ≤ wmax)
    (hpos : W.strWidthPos precision src = some (w, y)) (hs : (txt x).length < ssizeMax) (n : Nat)
    (hn : FillCount a.width w n) :
    (alignedPreciseString C W X a precision src).Means τ D Rep B
      ⟨padded C.encodeChar a n (txt x), w + n * 65536, w + n * 65536, w + n * 65536⟩ := by
  refine ⟨by dsimp only; omega, Int.le_refl _, by dsimp only; omega, ?_⟩
  intro p hp
  have hwm : wmax = 2147483647 := rfl
  unfold alignedPreciseString
  dsimp only at hp ⊢
  rw [hpos]
  have htk : src.take (src.length - y.length) = x := by rw [hsrc]; simp
  simp only [Option.bind_some, htk]
  obtain ⟨p', pr, e, hpr, s1, s2⟩ := alignedMake_eq HC HX a ha h hs w w n h0 (Int.le_refl _) h1 (fun _ => rfl) hn p (by
    intro b hb
    obtain ⟨k, k4, k5⟩ := hp b hb
    have := k.1
    have := k.2.1
    exact ⟨k, by omega⟩)
  refine ⟨p', pr, e, hpr, s1, (fun g => by rw [s2, g]; rfl), ?_⟩
  intro b hb
  obtain ⟨k, k4, k5⟩ := hp b hb
  rw [hb] at s2
  exact ⟨_, s2, rfl, by dsimp only; omega, by dsimp only; omega, by dsimp only; omega, fun _ => rfl, fun g => g⟩

end Strf.Print

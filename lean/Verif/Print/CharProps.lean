import Verif.Print.Ranges
import Verif.Print.TrProps
/-!
# Properties C50 and C51: characters and ranges
-/
namespace Strf.Print
open Strf.Width
open Strf.IntPrinter (AlignFmt)
open Strf.Dest (Dest Lawful Prints)
open Strf.Utf (Enc)

variable {σ : Type} {D : Dest Nat σ} {Rep : σ → List Nat → Prop} {C : Charset σ}

/-- width_calculator.hpp 27–34, 76–82, 120–126, 451–472 char_width(charset, unit) -/
def Calc.charWidth (c : Calc) (signed : Bool) (s : Cs) (unit : Nat) : Int :=
  match c with
  | .fast | .u32len | .fastU32len => 65536
  | .std => WidthCalc.stdCharWidth (s.source signed) unit

/-- a string of one unit is read as one character: the character it encodes, or U+FFFD -/
theorem read_unit (s : Cs) (u : Nat) (h : s.Units [u]) : ∃ x, s.read [u] = [(x, 1)] ∧
    match s with
    | .utf e => Utf.encode e x = [u] ∨ (x = 0xFFFD ∧ ∀ c, Utf.Scalar false c → Utf.encode e c ≠ [u])
    | .sbc I => x = I.decode u := by
  cases s with
  | sbc I => exact ⟨_, rfl, rfl⟩
  | utf e =>
    have hp := Utf.parses_items (lax := false) [u] h
    unfold Cs.read WidthCalc.utfRead
    dsimp only
    generalize Utf.items e false [u] = its at hp
    cases hp with
    | @ch _ c its hs hp =>
      obtain ⟨h1, h2, h3⟩ := hs
      have hpos := Utf.encode_pos e c
      have he : Utf.encode e c = [u] := by
        exact h2.eq_of_length (by have := h2.length_le; simp at this ⊢; omega)
      rw [he] at hp
      cases hp with
      | nil => exact ⟨c, by simp [Utf.Item.char, Utf.Item.size, he], .inl he⟩
      | @ch _ c' _ hs _ =>
        obtain ⟨_, g, _⟩ := hs
        have h1 := Utf.encode_pos e c'
        have h2 := g.length_le
        simp at h2
        rw [h2] at h1; simp at h1
      | bad g _ _ _ => exact absurd rfl g
    | @bad _ n its h1 h2 h3 hp =>
      obtain ⟨g1, g2, _⟩ := h3
      have hn : n = 1 := by simp at g2; omega
      subst hn
      cases hp with
      | nil =>
        refine ⟨0xFFFD, rfl, .inr ⟨rfl, ?_⟩⟩
        intro c hc he
        exact h2 c ⟨hc, by rw [he], by intro c' _ g; have := g.length_le; rw [he]; exact this⟩
      | @ch _ c' _ hs _ =>
        obtain ⟨_, g, _⟩ := hs
        have h1 := Utf.encode_pos e c'
        have h2 := g.length_le
        simp at h2
        rw [h2] at h1; simp at h1
      | bad g _ _ _ => exact absurd rfl g

theorem columns_narrow {c : Nat} (h : 0xD800 ≤ c ∧ c ≤ 0xDFFF ∨ 0x10FFFF < c) : WidthCalc.columns c = 1 := by
  unfold WidthCalc.columns
  rw [if_neg]
  unfold WidthCalc.isWide
  simp only [Bool.or_eq_true, Bool.and_eq_true, decide_eq_true_eq]
  omega

/-- C50: the width of a character is the one that a string that consists of it has: one column, or with std_width_calc
that of the character that the code unit is in its charset. All charsets and width calculators; the unit need not be
a character by itself. -/
theorem char_width_exact (c : Calc) (signed : Bool) (s : Cs) (u : Nat) (h : s.Units [u]) :
    c.charWidth signed s u = c.columns s [u] * 65536 := by
  obtain ⟨x, hx, hs⟩ := read_unit s u h
  unfold Calc.charWidth Calc.columns
  cases c with
  | fast => simp
  | u32len => dsimp only; rw [hx]; simp
  | fastU32len => dsimp only; rw [hx]; simp
  | std =>
    dsimp only
    rw [hx]
    have hw : ∀ y : Nat, ofI16 (WidthCalc.char32Width y) = (WidthCalc.columns y : Int) * 65536 :=
      fun y => (WidthCalc.std_char_width_exact y).1
    unfold WidthCalc.stdCharWidth
    rw [hw]
    have ht : WidthCalc.textColumns ([(x, 1)].map Prod.fst) = WidthCalc.columns x := by
      simp [WidthCalc.textColumns, WidthCalc.columnsAfter, WidthCalc.boundary]
    rw [ht]
    congr 2
    have hfd : WidthCalc.columns 0xFFFD = 1 := by decide
    cases s with
    | sbc I => rw [hs]; rfl
    | utf e =>
      have hu : u < e.bound := h u (by simp)
      simp only at hs
      show WidthCalc.columns (Utf.decodeUnit signed e u) = _
      cases e with
      | utf8 =>
        simp only [Utf.Enc.bound] at hu
        rcases hs with g | ⟨g, k⟩
        · have hxu : x = u ∧ x < 0x80 := by
            simp only [Utf.encode] at g
            split at g
            · exact ⟨by simpa using g, by assumption⟩
            · split at g
              · simp at g
              · split at g <;> simp at g
          obtain ⟨rfl, hlt⟩ := hxu
          simp only [Utf.decodeUnit, show ¬ 0x80 ≤ x by omega, decide_false, Bool.and_false, hlt, if_true]
          rfl
        · have hge : 0x80 ≤ u := by
            by_contra hlt
            exact k u ⟨by omega, .inr (by unfold Utf.IsSurr; omega)⟩ (by simp [Utf.encode, show u < 0x80 by omega])
          rw [g, hfd]
          unfold Utf.decodeUnit
          cases signed with
          | true => simp only [Bool.true_and, decide_eq_true_eq, hge, if_true]; exact columns_narrow (by omega)
          | false => simp only [Bool.false_and, if_neg (show ¬ u < 0x80 by omega)]; exact hfd
      | utf16 =>
        rcases hs with g | ⟨g, k⟩
        · have hxu : x = u := by
            simp only [Utf.encode] at g
            split at g
            · simpa using g
            · simp at g
          rw [hxu]; rfl
        · rw [g, hfd]
          show WidthCalc.columns u = 1
          refine columns_narrow (.inl ?_)
          simp only [Utf.Enc.bound] at hu
          by_contra hn
          exact k u ⟨by omega, .inr (by unfold Utf.IsSurr; omega)⟩ (by simp [Utf.encode]; omega)
      | utf32 =>
        rcases hs with g | ⟨g, k⟩
        · have hxu : x = u := by simpa [Utf.encode] using g
          rw [hxu]; rfl
        · rw [g, hfd]
          show WidthCalc.columns u = 1
          refine columns_narrow ?_
          by_contra hn
          exact k u ⟨by omega, .inr (by unfold Utf.IsSurr; omega)⟩ (by simp [Utf.encode])

theorem char_width_range (c : Calc) (signed : Bool) (s : Cs) (u : Nat) :
    65536 ≤ c.charWidth signed s u ∧ c.charWidth signed s u ≤ 131072 := by
  unfold Calc.charWidth
  cases c with
  | std =>
    have hw : ∀ y : Nat, ofI16 (WidthCalc.char32Width y) = (WidthCalc.columns y : Int) * 65536 :=
      fun y => (WidthCalc.std_char_width_exact y).1
    dsimp only
    unfold WidthCalc.stdCharWidth
    rw [hw]
    unfold WidthCalc.columns
    split <;> omega
  | _ => dsimp only; omega

/-- C50: a character without format is itself; size 1; and its width. -/
theorem char_exact (L : Lawful D Rep) (B : Int) (c : Calc) (signed : Bool) (s : Cs) (u : Nat) (h : s.Units [u]) :
    (charItem D (c.charWidth signed s u) u).Means τ D Rep B
      ⟨[u], c.columns s [u] * 65536, c.columns s [u] * 65536, c.columns s [u] * 65536⟩ := by
  have hr := char_width_range c signed s u
  have hwm : wmax = 2147483647 := rfl
  rw [← char_width_exact c signed s u h]
  exact charItem_means L B _ (by omega) u

/-- C50: a char32_t printed to a destination of another character type is its encoding in the charset of the destination,
and the width is that of the character. -/
theorem char32_exact (L : Lawful D Rep) (HC : C.Lawful D Rep) (B : Int) (c : Calc) (signed : Bool) (u : Nat)
    (h : u < 2 ^ 32) :
    (convCharItem D C (c.charWidth signed (.utf .utf32) u) u).Means τ D Rep B
      ⟨C.encodeChar u, c.columns (.utf .utf32) [u] * 65536, c.columns (.utf .utf32) [u] * 65536,
        c.columns (.utf .utf32) [u] * 65536⟩ := by
  have hr := char_width_range c signed (.utf .utf32) u
  have hwm : wmax = 2147483647 := rfl
  rw [← char_width_exact c signed (.utf .utf32) u (by intro v hv; simp at hv; subst hv; simpa [Enc.bound] using h)]
  exact convCharItem_means L HC B _ (by omega) u

/-- The side condition: no overflow if the width of the alignment is at most 32767.5 columns. -/
theorem pad_fits {w : Int} {count : Nat} {width : Int} {n : Nat} (hw : 0 ≤ w)
    (hn : FillCount width (repeatedWidth w count) n) (ha : width ≤ 2147450880) :
    repeatedWidth w count + n * 65536 ≤ wmax := by
  have hwm : wmax = 2147483647 := rfl
  have hmul : 0 ≤ w * (count : Int) := Int.mul_nonneg hw (by omega)
  unfold repeatedWidth FillCount at *
  split at hn
  · unfold WidthSpec.IsRound at hn; omega
  · omega

/-- C50: multi(c, count) with alignment is the character, `count` times, and the fill characters that are missing to the
width, on the side asked for: as many as round(width - count * w), `w` the width of the character. Any charset, width
calculator, count and fill character; the size reported is the number of code units, and the width is that of the
characters and the fill characters. Missing: alignment of more than 32767.5 columns, see `char_align_overflow`. -/
theorem multi_char_exact_partial (L : Lawful D Rep) (HC : C.Lawful D Rep) (B : Int) (c : Calc) (signed : Bool) (s : Cs)
    (u : Nat) (h : s.Units [u]) (a : AlignFmt) (ha : wmin ≤ a.width ∧ a.width ≤ 2147450880) (count n : Nat)
    (hc : count < 2 ^ 63) (hn : FillCount a.width (min wmax (c.columns s [u] * 65536 * count)) n) :
    (fmtCharItem D C (c.charWidth signed s u) a count u).Means τ D Rep B
      ⟨padded C.encodeChar a n (List.replicate count u), min wmax (c.columns s [u] * 65536 * count) + n * 65536,
        min wmax (c.columns s [u] * 65536 * count) + n * 65536, min wmax (c.columns s [u] * 65536 * count) + n * 65536⟩ := by
  have hr := char_width_range c signed s u
  have hwm : wmax = 2147483647 := rfl
  rw [← char_width_exact c signed s u h] at hn ⊢
  exact fmtCharItem_means L HC B _ (by omega) a (by omega) count n hc hn (pad_fits (by omega) hn ha.2) u

/-- C50: the same for a char32_t printed to a destination of another character type. -/
theorem multi_char32_exact_partial (HC : C.Lawful D Rep) (B : Int) (c : Calc) (signed : Bool)
    (u : Nat) (h : u < 2 ^ 32) (a : AlignFmt) (ha : wmin ≤ a.width ∧ a.width ≤ 2147450880) (count n : Nat)
    (hc : count < 2 ^ 63) (hn : FillCount a.width (min wmax (c.columns (.utf .utf32) [u] * 65536 * count)) n) :
    (fmtConvCharItem C (c.charWidth signed (.utf .utf32) u) a count u).Means τ D Rep B
      ⟨padded C.encodeChar a n (List.replicate count (C.encodeChar u)).flatten,
        min wmax (c.columns (.utf .utf32) [u] * 65536 * count) + n * 65536,
        min wmax (c.columns (.utf .utf32) [u] * 65536 * count) + n * 65536,
        min wmax (c.columns (.utf .utf32) [u] * 65536 * count) + n * 65536⟩ := by
  have hr := char_width_range c signed (.utf .utf32) u
  have hwm : wmax = 2147483647 := rfl
  have hu : (Cs.utf .utf32).Units [u] := by intro v hv; simp at hv; subst hv; simpa [Enc.bound] using h
  rw [← char_width_exact c signed (.utf .utf32) u hu] at hn ⊢
  exact fmtConvCharItem_means HC B _ (by omega) a (by omega) count n hc hn (pad_fits (by omega) hn ha.2) u

/-- an aligned character for UTF-8 -/
def char8 (a : AlignFmt) (count u : Nat) : Item (Dest.Maker Nat) :=
  fmtCharItem Dest.Maker.dest (utf Dest.Maker.dest .utf8) (Calc.std.charWidth false (.utf .utf8) u) a count u

/-- C50 fails for an alignment of more than 32767.5 columns: the width of the whole is calculated, even if nothing is
premeasured, and overflows: `strf::right('a', 32767.6)`, as is written `strf::fmt('a') > width_t::from_underlying(2147457433)` -/
theorem char_align_overflow (w : Int) (hw : w = 65536 ∨ w = 131072) (a : AlignFmt)
    (ha : 2147450880 < a.width ∧ a.width ≤ wmax) (ch : Nat) (p : Pre) :
    (fmtCharItem D C w a 1 ch).make p = none := by
  suffices hi : charInit w a 1 p = none by
    unfold fmtCharItem
    dsimp only
    rw [hi]
    rfl
  have hwm : wmax = 2147483647 := rfl
  have hwn : wmin = -2147483648 := rfl
  unfold charInit
  rw [satMulI64_exact w 1 (by unfold CInt.InI32; omega) (by unfold CInt.InI64; omega)]
  have hcl : WidthSpec.clamp (w * 1) = w := by unfold WidthSpec.clamp; omega
  rw [hcl]
  simp only [Option.bind_some]
  rw [if_pos (by omega)]
  have hrd := Width.round_correct (a.width - w) (by unfold CInt.InI32; omega)
  unfold Width.sub CInt.chk32
  rw [if_pos (by omega)]
  simp only [Option.bind_some]
  unfold WidthSpec.IsRound at hrd
  obtain ⟨n, hn⟩ : ∃ n : Nat, Width.round (a.width - w) = n := ⟨(Width.round (a.width - w)).toNat, by omega⟩
  rw [hn] at hrd ⊢
  rw [ofInt_columns]
  unfold Width.add CInt.chk32 columnsWidth
  rw [if_neg (by omega)]
  rfl

example : printed (char8 ⟨0x2E, .center, 10 * 65536⟩ 3 0x61) = some (txt "...aaa....") := by decide +kernel

/-- the theorems apply to multi('漢', 3) > 10 in UTF-16 -/
example : ∃ n, (Cs.utf .utf16).Units [0x6F22] ∧
    FillCount (10 * 65536) (min wmax (Calc.std.columns (.utf .utf16) [0x6F22] * 65536 * (3 : Nat))) n ∧ n = 4 ∧
    padded (utf Dest.Maker.dest .utf16).encodeChar ⟨0x2E, .right, 10 * 65536⟩ n (List.replicate 3 0x6F22) =
      [0x2E, 0x2E, 0x2E, 0x2E, 0x6F22, 0x6F22, 0x6F22] := by
  refine ⟨4, by simp [Cs.Units, Utf.Units, Enc.bound], ?_, rfl, ?_⟩ <;> decide +kernel

example : printed (fmtConvCharItem (utf Dest.Maker.dest .utf8) (Calc.std.charWidth false (.utf .utf32) 0x6F22)
    ⟨0x2E, .left, 5 * 65536⟩ 2 0x6F22) = some [0xE6, 0xBC, 0xA2, 0xE6, 0xBC, 0xA2, 0x2E] := by decide +kernel

/-! ## Ranges -/

/-- C51: a range is its elements, one after the other, each formatted as an argument would be. -/
theorem range_exact (L : Lawful D Rep) {B : Int} {its : List (Item σ)} {ms : List Meaning} (h : AllMean τ D Rep B its ms) :
    (range D its).Means τ D Rep B ⟨(ms.map (·.text)).flatten, (ms.map (·.width)).sum, (ms.map (·.room)).sum,
      (ms.map (·.cost)).sum⟩ := by
  have : ∀ ms : List Meaning, (⟨(ms.map (·.text)).flatten, (ms.map (·.width)).sum, (ms.map (·.room)).sum,
      (ms.map (·.cost)).sum⟩ : Meaning) = total ms := by
    intro ms
    induction ms with
    | nil => rfl
    | cons m ms ih => simp only [List.map_cons, List.flatten_cons, List.sum_cons, total, ← ih]
  rw [this]
  exact range_means L h

/-- C51: a separated range is its elements with the separator between each two of them; the size is the number of code units
and the width is that of the elements and of the separators. Both for ranges without format and for formatted or
transformed elements; all charsets and width calculators. -/
theorem separated_range_exact (L : Lawful D Rep) (c : Calc) (signed : Bool) (s : Cs) {B : Int} {its : List (Item σ)}
    {ms : List Meaning} (h : AllMean τ D Rep B its ms) (hn : ms.length < 2 ^ 64) (sep : List Nat) (hs : c.Ok s sep) :
    (separatedRange D (c.on signed s) sep its).Means τ D Rep B (separated sep (c.columns s sep * 65536) ms) ∧
    (fmtSeparatedRange D (c.on signed s) sep its).Means τ D Rep B (separated sep (c.columns s sep * 65536) ms) :=
  separated_means L (c.measures signed s) hs h hn

/-- C51: the elements that come after the destination has failed are not printed, but what is demanded of the
premeasurements is calculated (by the theorems above) in all cases. -/
theorem range_stops (its : List (Item σ)) (s : σ) (h : D.good s = false) : rangePrint D its s = some s := by
  cases its with
  | nil => rfl
  | cons it its => unfold rangePrint; rw [if_neg (by simp [h])]

/-- separated_range(numbers, "; ") -/
def sep8 (sep : String) (its : List (Item (Dest.Maker Nat))) : Item (Dest.Maker Nat) :=
  separatedRange Dest.Maker.dest (Calc.std.on false (.utf .utf8)) (txt sep) its

example : printed (sep8 "; " ([1, 22, 333].map fun i => intItem Dest.Maker.dest ⟨true, 4, i⟩)) = some (txt "1; 22; 333") := by
  decide +kernel
example : printed (sep8 "; " []) = some [] := by decide +kernel
/-- … and in a join of 12 columns -/
example : printed (alignedJoin Dest.Maker.dest (utf Dest.Maker.dest .utf8) ⟨0x2E, .center, 13 * 65536⟩
    [sep8 "; " ([1, 22, 333].map fun i => intItem Dest.Maker.dest ⟨true, 4, i⟩)]) = some (txt ".1; 22; 333..") := by
  decide +kernel

/-- The theorem applies to it -/
example : ∃ ms, AllMean true Dest.Maker.dest (fun s t => Dest.Maker.Rep s t) (13 * 65536)
      [intItem Dest.Maker.dest ⟨true, 4, 1⟩, intItem Dest.Maker.dest ⟨true, 4, 22⟩] ms ∧
    Calc.std.Ok (.utf .utf8) (txt "; ") ∧
    (separated (txt "; ") (Calc.std.columns (.utf .utf8) (txt "; ") * 65536) ms).text = txt "1; 22" ∧
    (separated (txt "; ") (Calc.std.columns (.utf .utf8) (txt "; ") * 65536) ms).width = 5 * 65536 := by
  refine ⟨_, .cons (intItem_means Dest.Maker.lawful _ (fun c => [c]) .lower ⟨true, 4, 1⟩ (by decide))
    (.cons (intItem_means Dest.Maker.lawful _ (fun c => [c]) .lower ⟨true, 4, 22⟩ (by decide)) .nil), ⟨?_, by simp⟩, ?_, ?_⟩
  · intro u hu; simp [txt] at hu; rcases hu with rfl | rfl <;> decide
  · decide +kernel
  · decide +kernel

end Strf.Print

import Verif.Print.StringWidth
/-!
# Property C38: strings with alignment and precision
-/
namespace Strf.Print
open Strf.Width
open Strf.IntPrinter (AlignFmt)
open Strf.Dest (Dest Lawful Prints)
open Strf.WidthCalc (textColumns ext cps columnsAfter Longest)

variable {σ : Type} {D : Dest Nat σ} {Rep : σ → List Nat → Prop} {C : Charset σ}

/-! ## Which printer is used -/

/-- The transcoding policies (string.hpp 16–60), that the format functions of strings set. -/
inductive Policy
  | noTranscode | saniUnconditionally | saniOnlyIfDifferent | unchecked
deriving DecidableEq, Repr

/-- What is known of the two charsets (338–375): the comparison is made at compile time, or at run time by comparing the ids. -/
inductive Comparison
  | equal | different | dynamic (sameId : Bool)
deriving DecidableEq, Repr

/-- What the printer does with the text. -/
inductive How
  | copy | copyOther | transcode | unchecked
deriving DecidableEq, Repr

/-- string.hpp 413–522 string_printer_type, 1547–1580 and 1636–1670 the variants; `sameType`: the two character types are the same
(otherwise they have the same size if the string is copied) -/
def choose (sameType : Bool) : Policy → Comparison → How
  | .noTranscode, _ => if sameType then .copy else .copyOther
  | .saniUnconditionally, _ => .transcode
  | .saniOnlyIfDifferent, .equal => if sameType then .copy else .copyOther
  | .saniOnlyIfDifferent, .different => .transcode
  | .saniOnlyIfDifferent, .dynamic same => if same then (if sameType then .copy else .copyOther) else .transcode
  | .unchecked, .dynamic same => if same then (if sameType then .copy else .copyOther) else .unchecked
  | .unchecked, _ => .unchecked

/-- The functions used; `same`: the charsets are the same, and the transcoder is the one that sanitises. -/
def How.content (how : How) (D : Dest Nat σ) (signed same : Bool) (s d : Cs) : Content σ :=
  match how with
  | .copy => .copy D
  | .copyOther => .copyOther D
  | .transcode => if same then (match s with
    | .sbc I => sanitizeContent D I
    | .utf e => Print.content D signed (.utf e) (.utf e)) else Print.content D signed s d
  | .unchecked => if same then (match s with
    | .sbc _ => bypassContent D
    | .utf e => unsafeContent D (.utf e) (.utf e)) else unsafeContent D s d

/-- The printer of a string: 1700–1790 make_printer. -/
def stringItem (C : Charset σ) (W : WCalc) (X : Content σ) (how : How) (a : Option AlignFmt) (precision : Option Int)
    (src : List Nat) : Item σ :=
  match a, precision with
  | none, none => match how with
    | .copy | .copyOther => copyString W X src
    | _ => transcodeString W X src
  | none, some p => preciseString W X p src
  | some a, none => alignedString C W X a src
  | some a, some p => alignedPreciseString C W X a p src

/-! ## The text -/

/-- What is to be printed for a string: itself, or the text of its characters in the charset of the destination, in which
U+FFFD stands for what is ill-formed. -/
def How.text (how : How) (s d : Cs) (src : List Nat) : List Nat :=
  match how with
  | .copy | .copyOther => src
  | .transcode | .unchecked => s.textIn d src

/-- The strings it is meant for. -/
def How.Ok (how : How) (s d : Cs) (src : List Nat) : Prop :=
  match how with
  | .copy | .copyOther => True
  | .transcode => s.Units src ∧ d.Units []
  | .unchecked => s.WellFormed src

theorem How.lawful (how : How) (L : Lawful D Rep) (signed same : Bool) (s d : Cs) (hs : same = true → s = d) :
    (how.content D signed same s d).Lawful D Rep (how.Ok s d) (how.text s d) := by
  cases how with
  | copy => exact copy_lawful L _
  | copyOther => exact copyOther_lawful L _
  | unchecked =>
    unfold How.content How.Ok How.text
    cases same with
    | false => exact unsafeContent_lawful L s d
    | true =>
      have := hs rfl
      subst this
      cases s with
      | sbc I => exact bypass_lawful L I
      | utf e => exact unsafeContent_lawful L (.utf e) (.utf e)
  | transcode =>
    unfold How.content How.Ok How.text
    cases same with
    | false => exact ⟨fun src h => (content_lawful L signed s d h.2).prints src h.1,
        fun src h => (content_lawful L signed s d h.2).size src h.1⟩
    | true =>
      have := hs rfl
      subst this
      cases s with
      | sbc I => exact ⟨fun src h => (sanitize_lawful L I).prints src h.1, fun src h => (sanitize_lawful L I).size src h.1⟩
      | utf e => exact ⟨fun src h => (content_lawful L signed (.utf e) (.utf e) h.2).prints src h.1,
          fun src h => (content_lawful L signed (.utf e) (.utf e) h.2).size src h.1⟩

/-! ## Alignment -/

/-- C38: a string with alignment is its text and as many fill characters as are missing to the width, on the side asked
for; the fill count is round(width - w), `w` the width of the string. All charsets and pairs of charsets, transcoding policies
and width calculators. The size reported is the number of code units, and the width is that of the string and the fill
characters. -/
theorem aligned_string_exact (L : Lawful D Rep) (HC : C.Lawful D Rep) (c : Calc) (how : How) (signed same : Bool) (s d : Cs)
    (hsame : same = true → s = d) (B : Int) (a : AlignFmt) (ha : CInt.InI32 a.width) (src : List Nat) (hc : c.Ok s src)
    (hh : how.Ok s d src) (hlen : (how.text s d src).length < ssizeMax) (n : Nat)
    (hn : FillCount a.width (c.columns s src * 65536) n) :
    (stringItem C (c.on signed s) (how.content D signed same s d) how (some a) none src).Means τ D Rep B
      (.aligned (how.text s d src) (c.columns s src * 65536) 65535 C.encodeChar a n) := by
  have HX := how.lawful L signed same s d hsame
  have HW := c.measures signed s
  exact alignedString_means (Ok := fun src => c.Ok s src ∧ how.Ok s d src) HC
    ⟨HW.slack0, HW.nonneg, fun src h => HW.strWidth src h.1⟩ ⟨fun src h => HX.prints src h.2, fun src h => HX.size src h.2⟩
    B a ha ⟨hc, hh⟩ hlen n hn

/-- C38: a string without alignment is its text. -/
theorem string_exact (L : Lawful D Rep) (c : Calc) (how : How) (signed same : Bool) (s d : Cs)
    (hsame : same = true → s = d) (B : Int) (src : List Nat) (hc : c.Ok s src)
    (hh : how.Ok s d src) (hlen : (how.text s d src).length < ssizeMax) :
    (stringItem C (c.on signed s) (how.content D signed same s d) how none none src).Means τ D Rep B
      ⟨how.text s d src, c.columns s src * 65536, c.columns s src * 65536, 65535⟩ := by
  have HX := how.lawful L signed same s d hsame
  have HW := c.measures signed s
  have := string_means (τ := τ) (Ok := fun src => c.Ok s src ∧ how.Ok s d src) (slack := 65535)
    ⟨HW.slack0, HW.nonneg, fun src h => HW.strWidth src h.1⟩ ⟨fun src h => HX.prints src h.2, fun src h => HX.size src h.2⟩
    B ⟨hc, hh⟩ hlen
  cases how with
  | copy => exact this.1
  | copyOther => exact this.1
  | transcode => exact this.2
  | unchecked => exact this.2

/-! ## Precision -/

/-- `x` is a beginning of the string that the width calculator can cut off: fast_width cuts between any two code units, the
others only between characters. -/
def Calc.Beginning (c : Calc) (s : Cs) (src x : List Nat) : Prop :=
  match c with
  | .fast => ∃ n, n ≤ src.length ∧ x = src.take n
  | _ => ∃ n, n ≤ (s.read src).length ∧ x = src.take (ext ((s.read src).take n))

/-- `x` is the longest beginning of the string whose width is not more than the precision. -/
def Calc.Kept (c : Calc) (s : Cs) (precision : Int) (src x : List Nat) : Prop :=
  c.Beginning s src x ∧ (c.columns s x : Int) * 65536 ≤ max 0 precision ∧
  ∀ x', c.Beginning s src x' → x.length < x'.length → precision < (c.columns s x' : Int) * 65536

theorem ext_take_mono {l : List (Nat × Nat)} {m n : Nat} (h : m ≤ n) : ext (l.take m) ≤ ext (l.take n) := by
  have : l.take m = (l.take n).take m := by rw [List.take_take, Nat.min_eq_left h]
  rw [this]
  have := WidthCalc.ext_append ((l.take n).take m) ((l.take n).drop m)
  rw [List.take_append_drop] at this
  omega

theorem len_of_take {s : Cs} {src : List Nat} (signed : Bool) (h : s.Units src) (n : Nat) :
    (src.take (ext ((s.read src).take n))).length = ext ((s.read src).take n) := by
  have L := s.source_lawful signed h.nil
  rw [List.length_take]
  have h1 := L.whole h
  have := WidthCalc.ext_append ((s.read src).take n) ((s.read src).drop n)
  rw [List.take_append_drop] at this
  omega

theorem pos_u32len (signed : Bool) (s : Cs) (precision : Int) (hp : precision ≤ wmax) (src : List Nat) (h : s.Units src) :
    ∃ x y, src = x ++ y ∧ Calc.u32len.Kept s precision src x ∧ s.Units x ∧ (s.WellFormed src → s.WellFormed x) ∧
      (Calc.u32len.on signed s).strWidthPos precision src = some ((Calc.u32len.columns s x : Int) * 65536, y) := by
  obtain ⟨n, h1, h2, h3, h4⟩ := WidthCalc.u32len_pos (s.source_lawful signed h.nil) h precision hp
  have hc : ∀ m, m ≤ (s.read src).length →
      Calc.u32len.columns s (src.take (ext ((s.read src).take m))) = m := by
    intro m hm
    unfold Calc.columns
    dsimp only
    rw [s.read_take src h m, List.length_take, Nat.min_eq_left hm]
  refine ⟨_, _, (List.take_append_drop (ext ((s.read src).take n)) src).symm, ⟨⟨n, h1, rfl⟩, ?_, ?_⟩, h.take _, ?_, ?_⟩
  · rw [hc n h1]; exact h3
  · rintro x' ⟨m, hm, rfl⟩ hlt
    rw [hc m hm]
    rw [len_of_take signed h, len_of_take signed h] at hlt
    refine h4 m ?_ hm
    by_contra g
    have := ext_take_mono (l := s.read src) (m := m) (n := n) (by omega)
    omega
  · intro hw
    cases s with
    | utf e =>
      have hu := h.take (ext (((Cs.utf e).read src).take n))
      refine Utf.AllGood.wellFormed hu ?_
      unfold Utf.AllGood
      have hp := parses_take (Utf.parses_items (lax := false) src h) n
      have e1 : ext (((Cs.utf e).read src).take n) = Utf.extent e ((Utf.items e false src).take n) := by
        unfold Cs.read WidthCalc.utfRead
        dsimp only
        rw [← List.map_take, WidthCalc.ext_utf]
      rw [e1] at hu ⊢
      rw [Utf.parses_unique (Utf.parses_items _ hu) hp]
      exact fun i hi => Utf.WellFormed.allGood hw i (List.mem_of_mem_take hi)
    | sbc I => exact ⟨hw.1, fun b hb => hw.2 b (List.mem_of_mem_take hb)⟩
  · rw [hc n h1]
    exact h2

theorem pos_fast (signed : Bool) (s : Cs) (precision : Int) (hp : precision ≤ wmax) (src : List Nat) :
    ∃ x y, src = x ++ y ∧ Calc.fast.Kept s precision src x ∧
      (Calc.fast.on signed s).strWidthPos precision src = some ((Calc.fast.columns s x : Int) * 65536, y) := by
  obtain ⟨n, h1, h2, h3, h4⟩ := WidthCalc.fast_str_width_and_pos_exact precision hp src
  have hc : ∀ m, m ≤ src.length → Calc.fast.columns s (src.take m) = m := by
    intro m hm
    unfold Calc.columns
    dsimp only
    rw [List.length_take, Nat.min_eq_left hm]
  refine ⟨_, _, (List.take_append_drop n src).symm, ⟨⟨n, h1, rfl⟩, ?_, ?_⟩, ?_⟩
  · rw [hc n h1]; exact h3
  · rintro x' ⟨m, hm, rfl⟩ hlt
    rw [hc m hm]
    rw [List.length_take, List.length_take] at hlt
    exact h4 m (by omega) hm
  · rw [hc n h1]
    unfold Calc.on
    dsimp only
    rw [h2]

/-- What a string with precision and perhaps alignment stands for, if `x` is kept and its width is taken for `w`. -/
def preciseMeaning (txt : List Nat) (w : Int) (enc : Nat → List Nat) (n : Nat) : Option AlignFmt → Meaning
  | none => ⟨txt, w, w, w⟩
  | some a => ⟨padded enc a n txt, w + n * 65536, w + n * 65536, w + n * 65536⟩

theorem precise_means (L : Lawful D Rep) (HC : C.Lawful D Rep) (W : WCalc) (how : How) (signed same : Bool) (s d : Cs)
    (hsame : same = true → s = d) (B : Int) (a : Option AlignFmt) (ha : ∀ a', a = some a' → CInt.InI32 a'.width)
    (precision : Int) (src x y : List Nat) (hsrc : src = x ++ y) (hh : how.Ok s d x)
    (hlen : (how.text s d x).length < ssizeMax) (w : Int) (h0 : 0 ≤ w) (h1 : w ≤ wmax)
    (hpos : W.strWidthPos precision src = some (w, y)) (n : Nat) (hn : ∀ a', a = some a' → FillCount a'.width w n) :
    (stringItem C W (how.content D signed same s d) how a (some precision) src).Means τ D Rep B
      (preciseMeaning (how.text s d x) w C.encodeChar n a) := by
  have HX := how.lawful L signed same s d hsame
  cases a with
  | none => exact preciseString_means HX B precision hh hsrc w h0 h1 hpos hlen
  | some a => exact alignedPreciseString_means HC HX B a (ha a rfl) precision hh hsrc w h0 h1 hpos hlen n (hn a rfl)

/-- C38, precision: with fast_width, width_as_u32len and width_as_fast_u32len, what is printed of the string is its longest
beginning whose width is not more than the precision; and the fill characters are as many as are missing to the width
of the alignment. (`hh` is about what is printed: with width_as_u32len and width_as_fast_u32len it follows from the
corresponding property of the whole string.) -/
theorem precise_string_exact (L : Lawful D Rep) (HC : C.Lawful D Rep) (c : Calc) (hcalc : c ≠ .std) (how : How)
    (signed same : Bool) (s d : Cs) (hsame : same = true → s = d) (B : Int) (a : Option AlignFmt)
    (ha : ∀ a', a = some a' → CInt.InI32 a'.width) (precision : Int) (hp : precision ≤ wmax) (src : List Nat)
    (hc : c.Ok s src) :
    ∃ x, c.Kept s precision src x ∧ (c ≠ .fast → s.Units x ∧ (s.WellFormed src → s.WellFormed x)) ∧
      (how.Ok s d x → (how.text s d x).length < ssizeMax →
      ∀ n, (∀ a', a = some a' → FillCount a'.width (c.columns s x * 65536) n) →
      (stringItem C (c.on signed s) (how.content D signed same s d) how a (some precision) src).Means τ D Rep B
        (preciseMeaning (how.text s d x) (c.columns s x * 65536) C.encodeChar n a)) := by
  have hwm : wmax = 2147483647 := rfl
  cases c with
  | std => exact absurd rfl hcalc
  | fast =>
    obtain ⟨x, y, h1, h2, h3⟩ := pos_fast signed s precision hp src
    refine ⟨x, h2, fun g => absurd rfl g, fun hh hlen n hn => ?_⟩
    exact precise_means L HC _ how signed same s d hsame B a ha precision src x y h1 hh hlen _ (by omega)
      (by have := h2.2.1; omega) h3 n hn
  | u32len =>
    obtain ⟨x, y, h1, h2, h3, h4, h5⟩ := pos_u32len signed s precision hp src hc.1
    refine ⟨x, h2, fun _ => ⟨h3, h4⟩, fun hh hlen n hn => ?_⟩
    exact precise_means L HC _ how signed same s d hsame B a ha precision src x y h1 hh hlen _ (by omega)
      (by have := h2.2.1; omega) h5 n hn
  | fastU32len =>
    obtain ⟨x, y, h1, h2, h3, h4, h5⟩ := pos_u32len signed s precision hp src hc.1
    rw [← (Calc.fast_eq signed s src (hc.2 rfl) precision).2] at h5
    refine ⟨x, h2, fun _ => ⟨h3, h4⟩, fun hh hlen n hn => ?_⟩
    exact precise_means L HC _ how signed same s d hsame B a ha precision src x y h1 hh hlen _ (by omega)
      (by have := h2.2.1; omega) h5 n hn

theorem columns_take {s : Cs} {src : List Nat} (h : s.Units src) (n : Nat) :
    Calc.std.columns s (src.take (ext ((s.read src).take n))) = textColumns ((cps s.read src).take n) := by
  unfold Calc.columns
  dsimp only
  rw [s.read_take src h n, List.map_take]

/-- C38, precision, with std_width_calc (part): what is printed is the longest beginning that fits unless its width is exactly
the precision and its number of characters is a multiple of 32; and the fill characters are as many as are missing if
the width of what is kept were `w`, the lesser of the precision and the width of the whole string.
Missing: the exception (WidthCalc.std_pos_block_wrong), that `w` is the width of what is kept (`std_precise_string_wrong`),
and negative precisions. -/
theorem std_precise_string_partial (L : Lawful D Rep) (HC : C.Lawful D Rep) (how : How)
    (signed same : Bool) (s d : Cs) (hsame : same = true → s = d) (B : Int) (a : Option AlignFmt)
    (ha : ∀ a', a = some a' → CInt.InI32 a'.width) (precision : Int) (hp : precision ≤ wmax) (hp0 : 0 ≤ precision)
    (src : List Nat) (hc : s.Units src) :
    ∃ x, Calc.std.Beginning s src x ∧ (Calc.std.columns s x : Int) * 65536 ≤ precision ∧
      (¬ ((s.read x).length % 32 = 0 ∧ 0 < x.length ∧ x.length < src.length ∧
          (Calc.std.columns s x : Int) * 65536 = precision) → Calc.std.Kept s precision src x) ∧
      (how.Ok s d x → (how.text s d x).length < ssizeMax →
      ∀ n, (∀ a', a = some a' → FillCount a'.width (min precision (Calc.std.columns s src * 65536)) n) →
      (stringItem C (Calc.std.on signed s) (how.content D signed same s d) how a (some precision) src).Means τ D Rep B
        (preciseMeaning (how.text s d x) (min precision (Calc.std.columns s src * 65536)) C.encodeChar n a)) := by
  have LS := s.source_lawful signed hc.nil
  obtain ⟨n, h1, h2, h3, _⟩ := WidthCalc.std_pos LS hc precision hp hp0
  refine ⟨src.take (ext ((s.read src).take n)), ⟨n, h1, rfl⟩, ?_, ?_, ?_⟩
  · rw [columns_take hc]
    rcases h3 with g | g
    · exact g.1
    · omega
  · intro hx
    rw [s.read_take src hc, len_of_take signed hc, columns_take hc, List.length_take, Nat.min_eq_left h1] at hx
    have hL : Longest (cps s.read src) precision n := by
      refine h3.resolve_right fun g => hx ⟨g.1, ?_, ?_, g.2.2.2⟩
      · have := WidthCalc.length_le_ext (l := (s.read src).take n) fun p hp => LS.scalar hc p (List.mem_of_mem_take hp)
        rw [List.length_take] at this
        omega
      · have e1 := LS.whole hc
        have e2 := WidthCalc.ext_append ((s.read src).take n) ((s.read src).drop n)
        rw [List.take_append_drop] at e2
        have := WidthCalc.length_le_ext (l := (s.read src).drop n) fun p hp => LS.scalar hc p (List.mem_of_mem_drop hp)
        rw [List.length_drop] at this
        omega
    refine ⟨⟨n, h1, rfl⟩, by rw [columns_take hc]; have := hL.1; omega, ?_⟩
    rintro x' ⟨m, hm, rfl⟩ hlt
    rw [len_of_take signed hc, len_of_take signed hc] at hlt
    rw [columns_take hc]
    refine hL.2 m ?_ (by simpa using hm)
    by_contra g
    have := ext_take_mono (l := s.read src) (m := m) (n := n) (by omega)
    omega
  · intro hh hlen k hk
    exact precise_means L HC _ how signed same s d hsame B a ha precision src _ _
      (List.take_append_drop (ext ((s.read src).take n)) src).symm hh hlen _ (by omega) (by omega) h2 k hk

/-- C38, precision, std_width_calc: texts of at most 32 characters, none of them wide, and a precision in whole columns: what
is kept is the longest beginning that fits and the fill count is right. -/
theorem std_precise_string_narrow (L : Lawful D Rep) (HC : C.Lawful D Rep) (how : How)
    (signed same : Bool) (s d : Cs) (hsame : same = true → s = d) (B : Int) (a : Option AlignFmt)
    (ha : ∀ a', a = some a' → CInt.InI32 a'.width) (k : Nat) (hp : (k : Int) * 65536 ≤ wmax)
    (src : List Nat) (hc : s.Units src) (hshort : (s.read src).length ≤ 32)
    (hnarrow : ∀ p ∈ s.read src, WidthCalc.columns p.1 = 1) :
    ∃ x, Calc.std.Kept s (k * 65536) src x ∧
      (how.Ok s d x → (how.text s d x).length < ssizeMax →
      ∀ n, (∀ a', a = some a' → FillCount a'.width (Calc.std.columns s x * 65536) n) →
      (stringItem C (Calc.std.on signed s) (how.content D signed same s d) how a (some (k * 65536)) src).Means τ D Rep B
        (preciseMeaning (how.text s d x) (Calc.std.columns s x * 65536) C.encodeChar n a)) := by
  obtain ⟨x, ⟨m, hm, rfl⟩, h2, h3, h4⟩ := std_precise_string_partial (C := C) L HC how signed same s d hsame B a ha (k * 65536) hp
    (by omega) src hc
  have LS := s.source_lawful signed hc.nil
  have hK := h3 (by
    rw [s.read_take src hc, len_of_take signed hc, List.length_take, Nat.min_eq_left hm]
    rintro ⟨g1, g2, g3, _⟩
    have hm0 : m ≠ 0 := by
      rintro rfl
      simp [ext] at g2
    have : m = (s.read src).length := by omega
    rw [List.take_of_length_le (by omega), LS.whole hc] at g3
    omega)
  refine ⟨_, hK, ?_⟩
  have hmin : min ((k : Int) * 65536) (Calc.std.columns s src * 65536) =
      Calc.std.columns s (src.take (ext ((s.read src).take m))) * 65536 := by
    rw [columns_take hc]
    rw [columns_take hc] at h2
    by_cases hall : m = (s.read src).length
    · have e1 : (cps s.read src).take m = cps s.read src := List.take_of_length_le (by simp; omega)
      rw [e1] at h2 ⊢
      have e2 : Calc.std.columns s src = textColumns (cps s.read src) := rfl
      rw [e2]; omega
    · have hlt : m < (cps s.read src).length := by simp; omega
      have hstep : textColumns ((cps s.read src).take (m + 1)) ≤ textColumns ((cps s.read src).take m) + 1 := by
        unfold WidthCalc.textColumns
        rw [List.take_add_one, List.getElem?_eq_getElem hlt, WidthCalc.columnsAfter_append]
        have hc1 : WidthCalc.columns (cps s.read src)[m] = 1 := by
          simp only [List.getElem_map]
          exact hnarrow _ (List.getElem_mem _)
        simp only [Option.toList_some, columnsAfter, hc1]
        split <;> omega
      have hge : textColumns ((cps s.read src).take (m + 1)) ≤ textColumns (cps s.read src) := by
        have := List.take_append_drop (m + 1) (cps s.read src)
        have e : textColumns (cps s.read src) = columnsAfter [] ((cps s.read src).take (m + 1) ++ (cps s.read src).drop (m + 1)) := by
          rw [this]; rfl
        rw [e, WidthCalc.columnsAfter_append]
        exact Nat.le_add_right _ _
      have e2 : Calc.std.columns s src = textColumns (cps s.read src) := rfl
      have hgt : (k : Int) * 65536 < (textColumns ((cps s.read src).take (m + 1)) : Int) * 65536 := by
        have := hK.2.2 _ ⟨m + 1, by omega, rfl⟩ (by
          rw [len_of_take signed hc, len_of_take signed hc]
          have e3 : (s.read src).take (m + 1) = (s.read src).take m ++ [(s.read src)[m]'(by simpa using hlt)] := by
            rw [List.take_add_one, List.getElem?_eq_getElem (by simpa using hlt)]; rfl
          rw [e3, WidthCalc.ext_append]
          have := (LS.scalar hc _ (List.getElem_mem (l := s.read src) (n := m) (by simpa using hlt))).2
          simp only [ext]
          omega)
        rw [columns_take hc] at this
        exact this
      rw [e2]
      omega
  rw [hmin] at h4
  exact h4

/-- what an item prints through `strf::to_string` -/
def printed (it : Item (Dest.Maker Nat)) : Option (List Nat) :=
  (it.print (Dest.Maker.init (List.replicate 64 0))).bind fun s => (Dest.Maker.finishE true s).2

/-- C38 fails for std_width_calc: `strf::right(u8"漢", 4).p(1)` keeps nothing, because the character takes two columns; but
three fill characters are printed instead of four. -/
theorem std_precise_string_wrong :
    printed (stringItem (utf Dest.Maker.dest .utf8) (Calc.std.on false (.utf .utf8))
      (How.copy.content Dest.Maker.dest false true (.utf .utf8) (.utf .utf8)) .copy
      (some ⟨0x20, .right, 4 * 65536⟩) (some 65536) [0xE6, 0xBC, 0xA2]) = some [0x20, 0x20, 0x20] ∧
    Calc.std.Kept (.utf .utf8) 65536 [0xE6, 0xBC, 0xA2] [] ∧ FillCount (4 * 65536) 0 4 := by
  refine ⟨by decide +kernel, ⟨⟨0, by omega, rfl⟩, by decide +kernel, ?_⟩, by decide +kernel⟩
  rintro x' ⟨n, hn, rfl⟩ hlt
  have hl : (Cs.read (.utf .utf8) [0xE6, 0xBC, 0xA2]).length = 1 := by decide +kernel
  rw [hl] at hn
  obtain rfl | rfl : n = 0 ∨ n = 1 := by omega
  · simp [ext] at hlt
  · decide +kernel

/-- U+00E9 and U+20AC from ISO-8859-15 to UTF-8, centred in seven columns -/
example : printed (stringItem (utf Dest.Maker.dest .utf8) (Calc.std.on false (.sbc Sbc.iso_8859_15))
      (How.transcode.content Dest.Maker.dest false false (.sbc Sbc.iso_8859_15) (.utf .utf8)) .transcode
      (some ⟨0x2E, .center, 7 * 65536⟩) none [0xE9, 0xA4]) =
    some [0x2E, 0x2E, 0xC3, 0xA9, 0xE2, 0x82, 0xAC, 0x2E, 0x2E, 0x2E] := by decide +kernel

/-- the theorems apply -/
example : How.transcode.Ok (.sbc Sbc.iso_8859_15) (.utf .utf8) [0xE9, 0xA4] ∧
    Calc.std.Ok (.sbc Sbc.iso_8859_15) [0xE9, 0xA4] ∧
    FillCount (7 * 65536) (Calc.std.columns (.sbc Sbc.iso_8859_15) [0xE9, 0xA4] * 65536) 5 ∧
    padded (utf Dest.Maker.dest .utf8).encodeChar ⟨0x2E, .center, 7 * 65536⟩ 5
      (How.transcode.text (.sbc Sbc.iso_8859_15) (.utf .utf8) [0xE9, 0xA4]) =
      [0x2E, 0x2E, 0xC3, 0xA9, 0xE2, 0x82, 0xAC, 0x2E, 0x2E, 0x2E] ∧
    How.unchecked.Ok (.utf .utf8) (.utf .utf16) [0xC3, 0xA9] := by
  refine ⟨⟨⟨by simp [Sbc.all], by decide⟩, by simp [Cs.Units, Utf.Units]⟩, ⟨⟨by simp [Sbc.all], by decide⟩, by simp⟩,
    by decide +kernel, by decide +kernel, ⟨[0xE9], by decide, by decide⟩⟩

/-- precision: two of the three characters of "a\xE9b" fit, and one fill character -/
example : printed (stringItem (utf Dest.Maker.dest .utf8) (Calc.u32len.on false (.utf .utf8))
      (How.copy.content Dest.Maker.dest false true (.utf .utf8) (.utf .utf8)) .copy
      (some ⟨0x20, .left, 3 * 65536⟩) (some (2 * 65536)) [0x61, 0xC3, 0xA9, 0x62]) = some [0x61, 0xC3, 0xA9, 0x20] := by
  decide +kernel

/-- Which policy does what: well-formed text comes out as the same characters whatever the policy, also when it is
copied. -/
theorem policies_agree (s : Cs) (src : List Nat) (h : s.WellFormed src) (how how' : How) : how.text s s src = how'.text s s src := by
  have key : s.textIn s src = src := by
    cases s with
    | utf e =>
      obtain ⟨cs, hc, rfl⟩ := h
      rw [textIn_utf_utf, Utf.render_eq]
      have hw : Utf.WellFormed e false (cs.flatMap (Utf.encode e)) := ⟨cs, hc, rfl⟩
      rw [Utf.parses_unique (Utf.parses_items _ hw.units) (Utf.parses_wf (by simp) cs hc), List.map_map]
      congr 1
      exact List.map_id cs
    | sbc I =>
      rw [textIn_sbc]
      show List.flatMap (fun c => [Sbc.encodeChar I c]) _ = _
      rw [flatMap_single, List.map_map]
      conv => rhs; rw [← List.map_id src]
      refine List.map_congr_left fun b hb => ?_
      have := decode_eq h.1 (h.2 b hb).1
      rw [(h.2 b hb).2] at this
      exact this.symm
  cases how <;> cases how' <;> simp [How.text, key]

/-- the two charsets are the same -/
def Comparison.same : Comparison → Bool
  | .equal => true
  | .different => false
  | .dynamic s => s

/-- Which policy does what (docs/ref_printable_types.adoc, format functions of strings): with `no_tr` the string is copied;
`sani` always replaces what is ill-formed; by default a string is copied if the charsets are the same and otherwise
transcoded, whether they are compared at compile time or at run time; with `unsafe_tr` what is ill-formed is not looked
for. -/
theorem policy_choice (sameType : Bool) (c : Comparison) :
    (choose sameType .noTranscode c = if sameType then .copy else .copyOther) ∧
    choose sameType .saniUnconditionally c = .transcode ∧
    (choose sameType .saniOnlyIfDifferent c =
      if c.same then (if sameType then .copy else .copyOther) else .transcode) ∧
    (c.same = false → choose sameType .unchecked c = .unchecked) ∧
    (c.same = true → choose sameType .unchecked c = .unchecked ∨
      choose sameType .unchecked c = if sameType then .copy else .copyOther) := by
  cases sameType <;> rcases c with _ | _ | ⟨_ | _⟩ <;> decide

end Strf.Print

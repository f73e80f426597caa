import Verif.Print.StringUnsafe
/-!
The width calculators of strf (WidthCalc/Model.lean) for the string printers.
-/
namespace Strf.Print
open Strf.Width
open Strf.Utf (Enc Parses items extent encode Scalar Starts Initial MaximalSubpart)
open Strf.WidthCalc (textColumns ext cps Source StrWidthOk Longest)

/-- the part of a charset that the width calculators use (WidthCalc/Instances.lean); `signed`: the code unit type is signed -/
def Cs.source (signed : Bool) : Cs → Source
  | .utf e => WidthCalc.utf signed e
  | .sbc I => WidthCalc.sbc I

/-- The width calculators: fast_width, width_as_u32len, width_as_fast_u32len, std_width_calc. -/
inductive Calc
  | fast | u32len | fastU32len | std
deriving DecidableEq, Repr

/-- width_calculator.hpp, for the strings of a charset -/
def Calc.on (c : Calc) (signed : Bool) (s : Cs) : WCalc :=
  match c with
  | .fast => ⟨fun lim src => some (WidthCalc.fastStrWidth lim src), fun lim src => some (WidthCalc.fastStrWidthPos lim src)⟩
  | .u32len => ⟨WidthCalc.u32lenStrWidth (s.source signed).count, WidthCalc.u32lenStrWidthPos (s.source signed).count⟩
  | .fastU32len =>
    ⟨WidthCalc.u32lenStrWidth (s.source signed).countFast, WidthCalc.u32lenStrWidthPos (s.source signed).countFast⟩
  | .std => ⟨WidthCalc.stdStrWidth (s.source signed), WidthCalc.stdStrWidthPos (s.source signed)⟩

/-- The number of columns of a string, as documented (docs/ref_width.adoc): the number of code units, the number of
characters, or the sum of the columns of the grapheme clusters. -/
def Calc.columns (c : Calc) (s : Cs) (src : List Nat) : Nat :=
  match c with
  | .fast => src.length
  | .u32len | .fastU32len => (s.read src).length
  | .std => textColumns ((s.read src).map Prod.fst)

/-- The strings for which the calculator is specified: width_as_fast_u32len only for well-formed strings. -/
def Calc.Ok (c : Calc) (s : Cs) (src : List Nat) : Prop := s.Units src ∧ (c = .fastU32len → s.WellFormed src)

theorem exists_starts {e : Enc} {lax : Bool} {src : List Nat} : ∀ (k : Nat) (c : Nat), src.length - (encode e c).length < k →
    Scalar lax c → encode e c <+: src → ∃ c', Starts e lax src c' := by
  intro k
  induction k with
  | zero => intro c h; omega
  | succ k ih =>
    intro c hk hs hp
    by_cases h : ∀ c', Scalar lax c' → encode e c' <+: src → (encode e c').length ≤ (encode e c).length
    · exact ⟨c, hs, hp, h⟩
    · simp only [not_forall, Nat.not_le] at h
      obtain ⟨c', h1, h2, h3⟩ := h
      exact ih c' (by have := h2.length_le; omega) h1 h2

theorem parses_take {e : Enc} {lax : Bool} {src : List Nat} {is : List Utf.Item} (h : Parses e lax src is) :
    ∀ n, Parses e lax (src.take (extent e (is.take n))) (is.take n) := by
  induction h with
  | nil => intro n; simp [extent]; exact .nil
  | @ch src c is hs hp ih =>
    intro n
    cases n with
    | zero => simp only [List.take_zero, extent]; exact .nil
    | succ n =>
      obtain ⟨h1, h2, h3⟩ := hs
      have hx : extent e ((Utf.Item.ch c :: is).take (n + 1)) = (encode e c).length + extent e (is.take n) := rfl
      rw [List.take_succ_cons, show extent e (Utf.Item.ch c :: is.take n) = (encode e c).length + extent e (is.take n) from rfl]
      refine .ch ⟨h1, ?_, ?_⟩ ?_
      · exact List.prefix_take_iff.2 ⟨h2, by omega⟩
      · intro c' g1 g2
        exact h3 c' g1 (g2.trans (List.take_prefix _ _))
      · have := ih n
        rw [List.drop_take, Nat.add_sub_cancel_left]
        exact this
  | @bad src n is h1 h2 h3 hp ih =>
    intro m
    cases m with
    | zero => simp only [List.take_zero, extent]; exact .nil
    | succ m =>
      obtain ⟨g1, g2, g3, g4⟩ := h3
      rw [List.take_succ_cons, show extent e (Utf.Item.bad n :: is.take m) = n + extent e (is.take m) from rfl]
      refine .bad ?_ ?_ ⟨g1, ?_, ?_, ?_⟩ ?_
      · intro g
        have := congrArg List.length g
        rw [List.length_take, List.length_nil] at this
        omega
      · rintro c ⟨k1, k2, _⟩
        obtain ⟨c', hc'⟩ := exists_starts (lax := lax) (src := src) _ c (Nat.lt_succ_self _) k1 (k2.trans (List.take_prefix _ _))
        exact h2 c' hc'
      · rw [List.length_take]; omega
      · rcases g3 with g3 | g3
        · exact .inl g3
        · right; rw [List.take_take, Nat.min_eq_left (by omega)]; exact g3
      · intro k k1 k2 k3
        rw [List.length_take] at k2
        rw [List.take_take, Nat.min_eq_left (by omega)] at k3
        exact g4 k k1 (by omega) k3
      · have := ih m
        rw [List.drop_take, Nat.add_sub_cancel_left]
        exact this

theorem Cs.source_lawful (signed : Bool) (s : Cs) (hs : s.Units []) : (s.source signed).Lawful s.Units s.read := by
  cases s with
  | utf e => exact WidthCalc.utf_lawful signed e
  | sbc I =>
    have L := WidthCalc.sbc_lawful I hs.1
    exact ⟨fun h n => ⟨h.1, L.okDrop h.2 n⟩, fun h => L.scalar h.2, fun h => L.whole h.2, fun h => L.drop h.2,
      fun h => L.toU32 h.2, fun h => L.toU32Pos h.2, fun h => L.count h.2⟩

theorem Cs.Units.nil {s : Cs} {src : List Nat} (h : s.Units src) : s.Units [] := by
  cases s with
  | utf e => intro u hu; cases hu
  | sbc I => exact ⟨h.1, by simp⟩

theorem Cs.Units.take {s : Cs} {src : List Nat} (h : s.Units src) (n : Nat) : s.Units (src.take n) := by
  cases s with
  | utf e => exact fun u hu => h u (List.mem_of_mem_take hu)
  | sbc I => exact ⟨h.1, fun b hb => h.2 b (List.mem_of_mem_take hb)⟩

/-- reading the beginning of a string up to a boundary between characters -/
theorem Cs.read_take (s : Cs) (src : List Nat) (h : s.Units src) (n : Nat) :
    s.read (src.take (ext ((s.read src).take n))) = (s.read src).take n := by
  cases s with
  | utf e =>
    have hp := parses_take (Utf.parses_items (lax := false) src h) n
    have hu : Utf.Units e (src.take (extent e ((items e false src).take n))) := fun u hu => h u (List.mem_of_mem_take hu)
    unfold Cs.read WidthCalc.utfRead
    dsimp only
    rw [← List.map_take, WidthCalc.ext_utf, Utf.parses_unique (Utf.parses_items _ hu) hp]
  | sbc I =>
    unfold Cs.read WidthCalc.sbcRead
    dsimp only
    rw [← List.map_take, WidthCalc.ext_sbc, List.length_take]
    congr 1
    by_cases hn : n ≤ src.length
    · rw [Nat.min_eq_left hn]
    · rw [Nat.min_eq_right (by omega), List.take_of_length_le (Nat.le_refl _), List.take_of_length_le (by omega)]

theorem countFast_eq (signed : Bool) (s : Cs) (src : List Nat) (h : s.WellFormed src) (n : Nat) :
    (s.source signed).countFast n src = (s.source signed).count n src := by
  cases s with
  | utf e => exact Utf.count_codepoints_fast_agrees e n src h
  | sbc I => rfl

theorem Calc.fast_eq (signed : Bool) (s : Cs) (src : List Nat) (h : s.WellFormed src) (lim : Int) :
    (Calc.fastU32len.on signed s).strWidth lim src = (Calc.u32len.on signed s).strWidth lim src ∧
    (Calc.fastU32len.on signed s).strWidthPos lim src = (Calc.u32len.on signed s).strWidthPos lim src := by
  unfold Calc.on
  dsimp only
  unfold WidthCalc.u32lenStrWidth WidthCalc.u32lenStrWidthPos
  rw [countFast_eq signed s src h, countFast_eq signed s src h]
  exact ⟨rfl, rfl⟩

theorem strWidthOk_is {w limit r : Int} (h : StrWidthOk w limit r) : StrWidthIs 65535 w limit r := by
  obtain ⟨h1, h2, h3, h4, h5, h6⟩ := h
  exact ⟨h1, h2, h3, h4, by omega, h5⟩

/-- All width calculators measure strings as documented. -/
theorem Calc.measures (c : Calc) (signed : Bool) (s : Cs) :
    (c.on signed s).Measures 65535 (c.Ok s) (fun src => (c.columns s src : Int) * 65536) where
  slack0 := by omega
  nonneg src := by omega
  strWidth src h limit _ hl := by
    have L := s.source_lawful signed h.1.nil
    cases c with
    | fast => exact ⟨_, rfl, strWidthOk_is (WidthCalc.fast_str_width_ok limit hl src)⟩
    | u32len =>
      obtain ⟨r, e, k⟩ := WidthCalc.u32len_width L h.1 limit hl
      exact ⟨r, e, strWidthOk_is k⟩
    | fastU32len =>
      obtain ⟨r, e, k⟩ := WidthCalc.u32len_width L h.1 limit hl
      refine ⟨r, ?_, strWidthOk_is k⟩
      rw [(Calc.fast_eq signed s src (h.2 rfl) limit).1]
      exact e
    | std =>
      refine ⟨_, WidthCalc.strWidth_eq L h.1 limit hl, strWidthOk_is (WidthCalc.std_str_width_ok _ limit ?_ hl)⟩
      omega

end Strf.Print

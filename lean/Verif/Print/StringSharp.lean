import Verif.Print.StringProps
import Verif.WidthCalc.Sharp
/-!
# C38, where exactly strings with precision differ from what is promised, with std_width_calc
-/
namespace Strf.Print
open Strf.Width
open Strf.IntPrinter (AlignFmt)
open Strf.Dest (Dest Lawful Prints)
open Strf.WidthCalc (textColumns ext cps columnsAfter Longest BlockStop)

variable {σ : Type} {D : Dest Nat σ} {Rep : σ → List Nat → Prop} {C : Charset σ}

theorem kept_iff_longest (signed : Bool) {s : Cs} {src : List Nat} (hc : s.Units src) {precision : Int} (hp0 : 0 ≤ precision)
    {n : Nat} (h1 : n ≤ (s.read src).length) :
    Calc.std.Kept s precision src (src.take (ext ((s.read src).take n))) ↔ Longest (cps s.read src) precision n := by
  have LS := s.source_lawful signed hc.nil
  constructor
  · rintro ⟨_, g2, g3⟩
    rw [columns_take hc] at g2
    refine ⟨by omega, fun m hm hm' => ?_⟩
    have hm'' : m ≤ (s.read src).length := by simpa using hm'
    have := g3 _ ⟨m, hm'', rfl⟩ (by
      rw [len_of_take signed hc, len_of_take signed hc]
      have e2 := WidthCalc.ext_append (((s.read src).take m).take n) (((s.read src).take m).drop n)
      rw [List.take_append_drop, List.take_take, Nat.min_eq_left (by omega)] at e2
      have := WidthCalc.length_le_ext (l := ((s.read src).take m).drop n) fun p hp =>
        LS.scalar hc p (List.mem_of_mem_take (List.mem_of_mem_drop hp))
      rw [List.length_drop, List.length_take] at this
      omega)
    rwa [columns_take hc] at this
  · intro hL
    refine ⟨⟨n, h1, rfl⟩, by rw [columns_take hc]; have := hL.1; omega, ?_⟩
    rintro x' ⟨m, hm, rfl⟩ hlt
    rw [len_of_take signed hc, len_of_take signed hc] at hlt
    rw [columns_take hc]
    refine hL.2 m ?_ (by simpa using hm)
    by_contra g
    have := ext_take_mono (l := s.read src) (m := m) (n := n) (by omega)
    omega

/-- C38, precision, with std_width_calc, exactly, for every string and every precision that is not negative: a beginning `x` of
the string is printed, and the fill characters are as many as are missing if its width were `w`. `x` is the longest
beginning that fits exactly if there is no place in the string, after a multiple of 32 characters, where the precision is
reached and the next character takes no room; and `w` is the width of `x` exactly if some beginning of the string has the
lesser of the precision and the width of the whole string. -/
theorem std_precise_string_iff (L : Lawful D Rep) (HC : C.Lawful D Rep) (how : How)
    (signed same : Bool) (s d : Cs) (hsame : same = true → s = d) (B : Int) (a : Option AlignFmt)
    (ha : ∀ a', a = some a' → CInt.InI32 a'.width) (precision : Int) (hp : precision ≤ wmax) (hp0 : 0 ≤ precision)
    (src : List Nat) (hc : s.Units src) :
    ∃ x w, Calc.std.Beginning s src x ∧
      (Calc.std.Kept s precision src x ↔
        ¬ ∃ k, BlockStop (cps s.read src) precision k ∧
          textColumns ((cps s.read src).take (k + 1)) = textColumns ((cps s.read src).take k)) ∧
      (w = (Calc.std.columns s x : Int) * 65536 ↔
        ∃ x', Calc.std.Beginning s src x' ∧
          (Calc.std.columns s x' : Int) * 65536 = min precision (Calc.std.columns s src * 65536)) ∧
      (how.Ok s d x → (how.text s d x).length < ssizeMax →
      ∀ n, (∀ a', a = some a' → FillCount a'.width w n) →
      (stringItem C (Calc.std.on signed s) (how.content D signed same s d) how a (some precision) src).Means τ D Rep B
        (preciseMeaning (how.text s d x) w C.encodeChar n a)) := by
  have LS := s.source_lawful signed hc.nil
  obtain ⟨n, h1, h2, h3, h4⟩ := WidthCalc.std_pos LS hc precision hp hp0
  have el : (s.read src).length = (cps s.read src).length := by simp
  rw [el] at h3 h4
  have hA := WidthCalc.accepted_of h3 h4
  refine ⟨src.take (ext ((s.read src).take n)), min precision (Calc.std.columns s src * 65536), ⟨n, h1, rfl⟩, ?_, ?_, ?_⟩
  · rw [kept_iff_longest signed hc hp0 h1, hA.longest_iff]
  · rw [columns_take hc]
    have e2 : Calc.std.columns s src = textColumns (cps s.read src) := rfl
    rw [e2, hA.width_iff (by omega)]
    constructor
    · rintro ⟨m, hm, g⟩
      exact ⟨_, ⟨m, by omega, rfl⟩, by rw [columns_take hc]; exact g⟩
    · rintro ⟨_, ⟨m, hm, rfl⟩, g⟩
      exact ⟨m, by omega, by rw [columns_take hc] at g; exact g⟩
  · intro hh hlen k hk
    exact precise_means L HC _ how signed same s d hsame B a ha precision src _ _
      (List.take_append_drop (ext ((s.read src).take n)) src).symm hh hlen _ (by omega) (by omega) h2 k hk

/-- C38 fails for negative precisions: `strf::right("a", 4).p(-1)` prints five fill characters. -/
theorem std_precise_negative_wrong :
    printed (stringItem (utf Dest.Maker.dest .utf8) (Calc.std.on false (.utf .utf8))
      (How.copy.content Dest.Maker.dest false true (.utf .utf8) (.utf .utf8)) .copy
      (some ⟨0x20, .right, 4 * 65536⟩) (some (-65536)) [0x61]) = some [0x20, 0x20, 0x20, 0x20, 0x20] ∧
    FillCount (4 * 65536) 0 4 := by
  refine ⟨by decide +kernel, by decide +kernel⟩

/-- The theorem applies: 40 letters, precision 32. -/
example : BlockStop (cps (Cs.read (.utf .utf8)) (List.replicate 40 0x65)) (32 * 65536) 32 ∧
    Cs.Units (.utf .utf8) (List.replicate 40 0x65) := by
  refine ⟨by unfold BlockStop; decide +kernel, by simp [Cs.Units, Utf.Units, Utf.Enc.bound]⟩

end Strf.Print

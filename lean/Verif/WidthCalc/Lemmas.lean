import Verif.WidthCalc.StateLemmas
import Mathlib.Tactic.Conv
/-! std_width_calc_func, and the loops that feed it 32 code points at a time. -/
namespace Strf.WidthCalc
open Strf.Width

/-! ### The width of the parts of a text -/

theorem columnsAfter_append (before a b : List Nat) :
    columnsAfter before (a ++ b) = columnsAfter before a + columnsAfter (a.reverse ++ before) b := by
  induction a generalizing before with
  | nil => simp [columnsAfter]
  | cons c t ih =>
    simp only [List.cons_append, columnsAfter, ih, List.reverse_cons, List.append_assoc, List.nil_append]
    omega

theorem columnsAfter_take_le (before s : List Nat) (n : Nat) : columnsAfter before (s.take n) ≤ columnsAfter before s := by
  conv_rhs => rw [← List.take_append_drop n s, columnsAfter_append]
  omega

theorem columns_pos (c : Nat) : 1 ≤ columns c := by unfold columns; split <;> omega
theorem columns_le (c : Nat) : columns c ≤ 2 := by unfold columns; split <;> omega

/-! ### One call -/

theorem calcFunc_cons {rp : Bool} {pos c : Nat} {t : List Nat} {width : Int} {state : Nat} {before : List Nat}
    (hi : Inv (before.map gcb) state) (hc : c ≤ 0x10FFFF) :
    ∃ st, Inv ((c :: before).map gcb) st ∧ calcFunc rp pos (c :: t) width state =
      if boundary (before.map gcb) (gcb c) then
        if (columns c : Int) * 65536 ≥ width then
          if !rp then ⟨0, 0, none⟩
          else if (columns c : Int) * 65536 > width then ⟨0, 0, some pos⟩
          else calcFunc rp (pos + 1) t 0 st
        else calcFunc rp (pos + 1) t (width - columns c * 65536) st
      else calcFunc rp (pos + 1) t width st := by
  obtain ⟨e1, e2⟩ := hi.next hc
  refine ⟨_, e2, ?_⟩
  conv_lhs => unfold calcFunc
  simp only [classify_width c hc, e1]

/-- Without `return_pos`: what remains of the width, if the text does not exhaust it. -/
theorem calcFunc_width : ∀ (s : List Nat) (pos : Nat) (width : Int) (state : Nat) (before : List Nat),
    Inv (before.map gcb) state → (∀ c ∈ s, c ≤ 0x10FFFF) → 0 ≤ width →
    ((columnsAfter before s : Int) * 65536 < width →
      ∃ st, Inv ((s.reverse ++ before).map gcb) st ∧
        calcFunc false pos s width state = ⟨width - columnsAfter before s * 65536, st, some (pos + s.length)⟩) ∧
    (width ≤ (columnsAfter before s : Int) * 65536 → (calcFunc false pos s width state).remaining = 0) := by
  intro s
  induction s with
  | nil =>
    intro pos width state before hi _ hw
    refine ⟨fun _ => ⟨state, hi, ?_⟩, fun h => ?_⟩
    · simp [calcFunc, columnsAfter]
    · simp only [columnsAfter] at h
      simp only [calcFunc]; omega
  | cons c t ih =>
    intro pos width state before hi hs hw
    obtain ⟨st, h1, h2⟩ := calcFunc_cons (rp := false) (pos := pos) (t := t) (width := width) hi (hs c (by simp))
    rw [h2]
    have hs' : ∀ c ∈ t, c ≤ 0x10FFFF := fun c hc => hs c (by simp [hc])
    have e : (c :: t).reverse ++ before = t.reverse ++ (c :: before) := by simp
    simp only [columnsAfter]
    by_cases hb : boundary (before.map gcb) (gcb c) = true
    · rw [if_pos hb, if_pos hb]
      by_cases hg : (columns c : Int) * 65536 ≥ width
      · rw [if_pos hg]
        refine ⟨fun h => by exfalso; omega, fun _ => rfl⟩
      · rw [if_neg hg]
        obtain ⟨g1, g2⟩ := ih (pos + 1) (width - columns c * 65536) st (c :: before) h1 hs' (by omega)
        refine ⟨fun h => ?_, fun h => g2 (by omega)⟩
        obtain ⟨st', k1, k2⟩ := g1 (by omega)
        refine ⟨st', by rw [e]; exact k1, ?_⟩
        rw [k2, List.length_cons, Ret.mk.injEq]
        exact ⟨by omega, rfl, congrArg some (by omega)⟩
    · rw [if_neg hb, if_neg hb]
      obtain ⟨g1, g2⟩ := ih (pos + 1) width st (c :: before) h1 hs' hw
      refine ⟨fun h => ?_, fun h => g2 (by omega)⟩
      obtain ⟨st', k1, k2⟩ := g1 (by omega)
      refine ⟨st', by rw [e]; exact k1, ?_⟩
      rw [k2, List.length_cons, Ret.mk.injEq]
      exact ⟨by omega, rfl, congrArg some (by omega)⟩

/-- `n` is the number of code points of the longest beginning of `s` whose width is not greater than `width`. -/
def Fits (before s : List Nat) (width : Int) (n : Nat) : Prop :=
  n ≤ s.length ∧ (columnsAfter before (s.take n) : Int) * 65536 ≤ width ∧
  ∀ m, n < m → m ≤ s.length → width < (columnsAfter before (s.take m) : Int) * 65536

theorem Fits.succ {before t : List Nat} {c : Nat} {width w' : Int} {n : Nat}
    (h : Fits (c :: before) t w' n)
    (e : w' = width - ((if boundary (before.map gcb) (gcb c) then columns c else 0 : Nat) : Int) * 65536) :
    Fits before (c :: t) width (n + 1) := by
  obtain ⟨h1, h2, h3⟩ := h
  refine ⟨by simp; omega, ?_, fun m hm hl => ?_⟩
  · simp only [List.take_succ_cons, columnsAfter]; omega
  · obtain ⟨m', rfl⟩ : ∃ m', m = m' + 1 := ⟨m - 1, by omega⟩
    have := h3 m' (by omega) (by simp at hl; omega)
    simp only [List.take_succ_cons, columnsAfter]; omega

/-- With `return_pos`: the position is the end of the longest beginning that fits. -/
theorem calcFunc_pos : ∀ (s : List Nat) (pos : Nat) (width : Int) (state : Nat) (before : List Nat),
    Inv (before.map gcb) state → (∀ c ∈ s, c ≤ 0x10FFFF) → 0 ≤ width →
    ∃ n, Fits before s width n ∧
      (n < s.length → calcFunc true pos s width state = ⟨0, 0, some (pos + n)⟩) ∧
      (n = s.length → ∃ st, Inv ((s.reverse ++ before).map gcb) st ∧
        calcFunc true pos s width state = ⟨width - columnsAfter before s * 65536, st, some (pos + s.length)⟩) := by
  intro s
  induction s with
  | nil =>
    intro pos width state before hi _ hw
    refine ⟨0, ⟨by simp, by simpa [columnsAfter] using hw, fun m h1 h2 => by simp at h2; omega⟩, by simp, fun _ =>
      ⟨state, hi, by simp [calcFunc, columnsAfter]⟩⟩
  | cons c t ih =>
    intro pos width state before hi hs hw
    obtain ⟨st, h1, h2⟩ := calcFunc_cons (rp := true) (pos := pos) (t := t) (width := width) hi (hs c (by simp))
    rw [h2]
    have hs' : ∀ c ∈ t, c ≤ 0x10FFFF := fun c hc => hs c (by simp [hc])
    have e : (c :: t).reverse ++ before = t.reverse ++ (c :: before) := by simp
    have hp := columns_pos c
    -- the case in which the rest of the text is scanned
    have go : ∀ w', 0 ≤ w' →
        w' = width - ((if boundary (before.map gcb) (gcb c) then columns c else 0 : Nat) : Int) * 65536 →
        ∃ n, Fits before (c :: t) width n ∧
        (n < (c :: t).length → calcFunc true (pos + 1) t w' st = ⟨0, 0, some (pos + n)⟩) ∧
        (n = (c :: t).length → ∃ st', Inv (((c :: t).reverse ++ before).map gcb) st' ∧
          calcFunc true (pos + 1) t w' st =
            ⟨width - columnsAfter before (c :: t) * 65536, st', some (pos + (c :: t).length)⟩) := by
      intro w' hw' ew
      obtain ⟨n, g1, g2, g3⟩ := ih (pos + 1) w' st (c :: before) h1 hs' hw'
      refine ⟨n + 1, g1.succ ew, fun hn => ?_, fun hn => ?_⟩
      · rw [g2 (by simp at hn; omega)]; congr 2; omega
      · obtain ⟨st', k1, k2⟩ := g3 (by simp at hn; omega)
        refine ⟨st', by rw [e]; exact k1, ?_⟩
        rw [k2]
        simp only [columnsAfter, List.length_cons]
        rw [Ret.mk.injEq]
        exact ⟨by omega, rfl, congrArg some (by omega)⟩
    by_cases hb : boundary (before.map gcb) (gcb c) = true
    · rw [if_pos hb]
      rw [if_pos hb] at go
      by_cases hg : (columns c : Int) * 65536 ≥ width
      · rw [if_pos hg, if_neg (by simp)]
        by_cases hgt : (columns c : Int) * 65536 > width
        · rw [if_pos hgt]
          refine ⟨0, ⟨by simp, by simpa [columnsAfter] using hw, fun m hm _ => ?_⟩, fun _ => rfl, fun h => by simp at h⟩
          obtain ⟨m', rfl⟩ : ∃ m', m = m' + 1 := ⟨m - 1, by omega⟩
          simp only [List.take_succ_cons, columnsAfter, hb, if_true]; omega
        · rw [if_neg hgt]
          exact go 0 (by omega) (by omega)
      · rw [if_neg hg]
        exact go _ (by omega) rfl
    · rw [if_neg hb]
      rw [if_neg hb] at go
      exact go width hw (by simp)

end Strf.WidthCalc

import Verif.Lib.Model
import Verif.Dest.Lawful
import Verif.Dest.StringsLemmas
import Verif.Dest.Finish
/-!
# C84: what stands for the standard library in freestanding mode; string views; the iterator
-/
namespace Strf.Lib
open Strf.Dest (Dest Lawful Prints storeAt)

variable {α β : Type}

/-! ## Filling and copying -/

theorem storeAt_cons {mem : List α} {p : Nat} {x : α} {xs : List α} (h : p < mem.length) :
    storeAt (mem.set p x) (p + 1) xs = storeAt mem p (x :: xs) := by
  unfold storeAt
  have e : p + 1 + xs.length = p + (xs.length + 1) := by omega
  simp only [List.length_set, List.length_cons, e]
  by_cases hh : p + (xs.length + 1) ≤ mem.length
  · rw [if_pos hh, if_pos hh, List.take_set, List.take_succ_eq_append_getElem h, List.set_append]
    have hl : (mem.take p).length = p := by simp; omega
    rw [if_neg (by omega), hl, Nat.sub_self, List.set_cons_zero]
    rw [List.drop_set_of_lt (by omega)]
    simp
  · rw [if_neg hh, if_neg hh]

theorem storeAt_nil {mem : List α} {p : Nat} (h : p ≤ mem.length) : storeAt mem p ([] : List α) = some mem := by
  unfold storeAt; rw [if_pos (by simpa using h)]; simp

theorem storeAt_out {mem : List α} {p : Nat} {xs : List α} (h : mem.length < p + xs.length) : storeAt mem p xs = none := by
  unfold storeAt; rw [if_neg (by omega)]

/-- C84: `str_fill_n` stores `count` times the value, and nothing else; a negative count is zero. It is undefined behaviour only if it does not fit. -/
theorem fill_exact (mem : List α) (p : Nat) (count : Int) (value : α) (hp : p ≤ mem.length) :
    fillN mem p count value = storeAt mem p (List.replicate count.toNat value) := by
  unfold fillN
  generalize count.toNat = n
  induction n generalizing mem p with
  | zero => rw [List.replicate_zero, storeAt_nil hp]; rfl
  | succ n ih =>
    simp only [fillLoop, store]
    by_cases h : p < mem.length
    · rw [if_pos h, Option.bind_some, ih _ _ (by simp; omega), List.replicate_succ, storeAt_cons h]
    · rw [if_neg h, Option.bind_none, storeAt_out (by simp; omega)]

/-- C84: `copy_n` from one object to another stores the characters of the source, converted. -/
theorem copy_exact (f : α → β) (src : List α) (mem : List β) (p q n : Nat) (hp : p + n ≤ src.length) (hq : q ≤ mem.length) :
    copyTo f src mem p q n = storeAt mem q (((src.drop p).take n).map f) := by
  induction n generalizing mem p q with
  | zero => rw [List.take_zero, List.map_nil, storeAt_nil hq]; rfl
  | succ n ih =>
    have hp' : p < src.length := by omega
    simp only [copyTo, List.getElem?_eq_getElem hp', store]
    by_cases h : q < mem.length
    · rw [if_pos h, Option.bind_some, ih _ _ _ (by omega) (by simp; omega), List.drop_eq_getElem_cons hp', List.take_succ_cons, List.map_cons, storeAt_cons h]
    · rw [if_neg h, Option.bind_none, storeAt_out (by simp; omega)]

/-- C84: and it never reads beyond the end of the source -/
theorem copy_out (f : α → β) (src : List α) (mem : List β) (p q n : Nat) (hp : src.length < p + n) (hn : p ≤ src.length) : copyTo f src mem p q n = none := by
  induction n generalizing mem p q with
  | zero => omega
  | succ n ih =>
    unfold copyTo
    cases e : src[p]? with
    | none => rfl
    | some x =>
      dsimp only
      have hp' : p < src.length := by
        exact (List.getElem?_eq_some_iff.mp e).1
      cases hs : store mem q (f x) with
      | none => rfl
      | some m => exact ih m (p + 1) (q + 1) (by omega) (by omega)

/-- C84: inside of one object, `copy_n` copies the characters that were there before, if the destination is not after the beginning of the source and before its
end. -/
theorem copy_inside_exact (mem : List α) (p q n : Nat) (hp : p + n ≤ mem.length) (hq : q + n ≤ mem.length) (h : q ≤ p ∨ p + n ≤ q) :
    copyN id mem p q n = storeAt mem q ((mem.drop p).take n) := by
  induction n generalizing mem p q with
  | zero => rw [List.take_zero, storeAt_nil (by omega)]; rfl
  | succ n ih =>
    have hp' : p < mem.length := by omega
    have hq' : q < mem.length := by omega
    simp only [copyN, List.getElem?_eq_getElem hp', store, if_pos hq', Option.bind_some, id]
    rw [ih _ _ _ (by simp; omega) (by simp; omega) (by omega), List.drop_eq_getElem_cons hp', List.take_succ_cons, ← storeAt_cons hq']
    congr 1
    rcases h with h | h
    · rw [List.drop_set_of_lt (by omega)]
    · rw [List.drop_set, if_neg (by omega), List.take_set, List.set_eq_of_length_le (by simp; omega)]

/-! ## Null-terminated strings -/

theorem lengthLoop_exact (mem : List Nat) (n p k : Nat) (h : p + n = mem.length) :
    lengthLoop mem n p k = if 0 ∈ mem.drop p then some (k + ((mem.drop p).takeWhile (· ≠ 0)).length) else none := by
  induction n generalizing p k with
  | zero => rw [List.drop_eq_nil_of_le (by omega)]; rfl
  | succ n ih =>
    have hp : p < mem.length := by omega
    unfold lengthLoop
    rw [ih (p + 1) (k + 1) (by omega), List.drop_eq_getElem_cons hp]
    have hg : mem.getD p 0 = mem[p] := by simp [List.getD_eq_getElem?_getD, hp]
    rw [hg]
    by_cases h0 : mem[p] = 0
    · simp [h0]
    · have h0' : 0 ≠ mem[p] := fun e => h0 e.symm
      simp only [ne_eq, h0, not_false_eq_true, if_true, List.mem_cons, h0', false_or, decide_true, List.takeWhile_cons_of_pos, List.length_cons]
      split
      · congr 1; omega
      · rfl

/-- C84: `str_length` is the number of units before the first zero; undefined behaviour if there is none. -/
theorem str_length_exact (mem : List Nat) (p : Nat) (hp : p ≤ mem.length) :
    strLength mem p = if 0 ∈ mem.drop p then some ((mem.drop p).takeWhile (· ≠ 0)).length else none := by
  unfold strLength
  rw [lengthLoop_exact _ _ _ _ (by omega)]
  simp

/-! ## Searching and comparing -/

/-- C84: `str_find` returns the position of the first occurrence among `count` units, or null if there is none. -/
theorem str_find_exact (mem : List Nat) (p count ch : Nat) (h : p + count ≤ mem.length) :
    (∃ i, strFind mem p count ch = some (some (p + i)) ∧ i < count ∧ mem[p + i]? = some ch ∧ ∀ j < i, mem[p + j]? ≠ some ch) ∨
      (strFind mem p count ch = some none ∧ ∀ j < count, mem[p + j]? ≠ some ch) := by
  unfold strFind
  induction count generalizing p with
  | zero => exact .inr ⟨rfl, fun j hj => by omega⟩
  | succ n ih =>
    have hp : p < mem.length := by omega
    simp only [findLoop, List.getElem?_eq_getElem hp]
    by_cases hx : mem[p] = ch
    · left; exact ⟨0, by simp [hx], by omega, by simp [hp, hx], fun j hj => by omega⟩
    · rw [if_neg hx]
      have step : ∀ m, (∀ j < m, mem[p + 1 + j]? ≠ some ch) → ∀ j < m + 1, mem[p + j]? ≠ some ch := by
        intro m hm j hj
        cases j with
        | zero => simp [hp, hx]
        | succ j => have := hm j (by omega); rwa [show p + (j + 1) = p + 1 + j by omega]
      rcases ih (p + 1) (by omega) with ⟨i, e, h1, h2, h3⟩ | ⟨e, h1⟩
      · left; exact ⟨i + 1, by rw [e]; congr 2; omega, by omega, by rw [show p + (i + 1) = p + 1 + i by omega]; exact h2, step i h3⟩
      · right; exact ⟨e, step n h1⟩

/-- C84: `str_equal` says whether the two strings are equal. -/
theorem str_equal_exact (m1 m2 : List Nat) (p1 p2 n : Nat) (h1 : p1 + n ≤ m1.length) (h2 : p2 + n ≤ m2.length) :
    strEqual m1 p1 m2 p2 n = some (decide ((m1.drop p1).take n = (m2.drop p2).take n)) := by
  induction n generalizing p1 p2 with
  | zero => simp [strEqual]
  | succ n ih =>
    have l1 : p1 < m1.length := by omega
    have l2 : p2 < m2.length := by omega
    simp only [strEqual, List.getElem?_eq_getElem l1, List.getElem?_eq_getElem l2]
    rw [ih _ _ (by omega) (by omega), List.drop_eq_getElem_cons l1, List.drop_eq_getElem_cons l2]
    rw [List.take_succ_cons, List.take_succ_cons]
    by_cases h : m1[p1] = m2[p2]
    · rw [if_neg (by simp [h]), h]; simp
    · rw [if_pos h]; simp [h]

/-- C84: it stops at the first difference: it reads nothing after it, even if one of the strings ends there. -/
theorem str_equal_stops (m1 m2 : List Nat) (p1 p2 n k x y : Nat) (hk : k < n) (h1 : m1[p1 + k]? = some x) (h2 : m2[p2 + k]? = some y) (hxy : x ≠ y)
    (hs : ∀ j < k, m1[p1 + j]? = m2[p2 + j]?) : strEqual m1 p1 m2 p2 n = some false := by
  induction k generalizing p1 p2 n with
  | zero =>
    obtain ⟨n, rfl⟩ : ∃ m, n = m + 1 := ⟨n - 1, by omega⟩
    simp only [Nat.add_zero] at h1 h2
    simp [strEqual, h1, h2, hxy]
  | succ k ih =>
    obtain ⟨n, rfl⟩ : ∃ m, n = m + 1 := ⟨n - 1, by omega⟩
    have l1 : p1 < m1.length := by
      have := (List.getElem?_eq_some_iff.mp h1).1; omega
    have e := hs 0 (by omega)
    simp only [Nat.add_zero] at e
    rw [List.getElem?_eq_getElem l1] at e
    simp only [strEqual, ← e, List.getElem?_eq_getElem l1, ne_eq, not_true_eq_false, if_false]
    refine ih (p1 + 1) (p2 + 1) n (by omega) ?_ ?_ ?_
    · rw [show p1 + 1 + k = p1 + (k + 1) by omega]; exact h1
    · rw [show p2 + 1 + k = p2 + (k + 1) by omega]; exact h2
    · intro j hj
      have := hs (j + 1) (by omega)
      rwa [show p1 + 1 + j = p1 + (j + 1) by omega, show p2 + 1 + j = p2 + (j + 1) by omega]

/-! ## Views -/

/-- inside of its object -/
def View.Ok (v : View) : Prop := v.begin_ + v.len ≤ v.mem.length

/-- C84: A null-terminated string is a view of the units before the terminator. -/
theorem view_of_cstr (pre s rest : List Nat) (h : 0 ∉ s) :
    ∃ v, View.ofCstr (pre ++ s ++ 0 :: rest) pre.length = some v ∧ v.Ok ∧ v.units = s := by
  have hd : (pre ++ s ++ 0 :: rest).drop pre.length = s ++ 0 :: rest := by rw [List.append_assoc, List.drop_left]
  have ht : (s ++ 0 :: rest).takeWhile (· ≠ 0) = s := by
    rw [List.takeWhile_append_of_pos (by intro a ha; simp; intro e; exact h (e ▸ ha))]; simp
  refine ⟨⟨pre ++ s ++ 0 :: rest, pre.length, s.length⟩, ?_, ?_, ?_⟩
  · unfold View.ofCstr
    rw [str_length_exact _ _ (by simp), hd, if_pos (by simp), ht]
    rfl
  · simp [View.Ok]
  · simp only [View.units]; rw [hd, List.take_left]

/-- C84: Two pointers make a view of the units between them; none if the second is before the first. -/
theorem view_of_range (mem : List Nat) (p q : Nat) : (View.ofRange mem p q).units = (mem.drop p).take (q - p) := by
  simp only [View.units, View.ofRange]; congr 1; omega

/-- C84: `==` and `!=` compare the strings. -/
theorem view_eq_exact (a b : View) (ha : a.Ok) (hb : b.Ok) : a.eq b = some (decide (a.units = b.units)) ∧ a.ne b = some (decide (a.units ≠ b.units)) := by
  unfold View.Ok at ha hb
  unfold View.eq View.ne View.units
  by_cases h : a.len = b.len
  · rw [if_neg (by simp [h]), if_neg (by simp [h]), str_equal_exact _ _ _ _ _ ha (by omega), h]
    simp
  · rw [if_pos h, if_pos h]
    have : (a.mem.drop a.begin_).take a.len ≠ (b.mem.drop b.begin_).take b.len := by
      intro e
      have := congrArg List.length e
      simp at this; omega
    simp [this]

/-! ## Leading zeros -/

set_option maxHeartbeats 2000000 in
/-- C84: `slow_countl_zero_ll` is the number of leading zeros of a number of 64 bits. -/
theorem slow_countl_zero_exact (x : Nat) (hx : x < 2 ^ 64) :
    slowCountlZero x ≤ 64 ∧ x < 2 ^ (64 - slowCountlZero x) ∧ (slowCountlZero x < 64 → 2 ^ (63 - slowCountlZero x) ≤ x) := by
  unfold slowCountlZero
  repeat' split
  all_goals (refine ⟨by omega, ?_, ?_⟩ <;> simp only [Nat.reduceSub, Nat.reducePow] <;> omega)

/-! ## The iterator -/

variable {σ : Type} {D : Dest α σ} {Rep : σ → List α → Prop}

/-- C84: Copying to an `output_buffer_iterator` prints what is copied, in order, to any destination. -/
theorem iterator_exact (L : Lawful D Rep) (xs : List α) : Prints τ D Rep (copyToIterator D xs) xs := by
  induction xs with
  | nil => exact Prints.nil
  | cons x xs ih => exact Prints.comp (x := [x]) (L.prints_put (τ := τ) x) ih

/-- C84: `failed()` says whether the destination is in a bad state. -/
theorem iterator_failed (s : σ) : iteratorFailed D s = true ↔ D.good s = false := by simp [iteratorFailed]

/-- C84: with a string as the destination -/
theorem iterator_to_string (xs junk : List α) (hj : junk.length = 64) :
    ∃ s, copyToIterator Dest.Maker.dest xs (Dest.Maker.init junk) = some s ∧ (Dest.Maker.finishE true s).2 = some xs := by
  obtain ⟨s, e, r, _⟩ := iterator_exact (τ := true) Dest.Maker.lawful xs (Dest.Maker.init junk) [] (Dest.Maker.rep_init hj)
  exact ⟨s, e, Dest.Maker.finish_of_rep (by simpa using r)⟩

/-! ### cases -/

example : fillN [1, 2, 3, 4] 1 2 9 = some [1, 9, 9, 4] ∧ fillN [1, 2] 1 2 9 = none ∧ fillN [1, 2] 1 (-2) 9 = some [1, 2] := by decide
example : copyN id [1, 2, 3, 4] 1 0 3 = some [2, 3, 4, 4] ∧ copyN id [1, 2, 3, 4] 0 1 3 = some [1, 1, 1, 1] ∧ copyTo (· + 1) [1, 2] [0, 0, 0] 0 1 2 = some [0, 2, 3] := by
  decide
example : strLength [5, 6, 0, 7] 0 = some 2 ∧ strLength [5, 6, 0, 7] 3 = none ∧ strFind [5, 6, 0, 6] 0 4 6 = some (some 1) ∧ strFind [5, 6] 0 1 6 = some none ∧
    strEqual [5, 6, 7] 0 [5, 9] 0 3 = some false ∧ strEqual [5, 6, 7] 1 [6, 7] 0 2 = some true ∧ strEqual [5, 6] 0 [5] 0 2 = none := by decide
example : ((View.ofCstr [9, 5, 6, 0, 7] 1).bind fun a => a.eq (View.ofRange [5, 6] 0 2)) = some true := by decide
example : slowCountlZero 0 = 64 ∧ slowCountlZero 1 = 63 ∧ slowCountlZero 0x1234567890 = 27 := by decide

end Strf.Lib

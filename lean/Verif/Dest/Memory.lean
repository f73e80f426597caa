/-
Memory used by the destination models: a buffer is a list, a store outside it is undefined behaviour (`none`).
-/
namespace Strf.Dest

/-- `memcpy(buf + i, xs, n)` / `str_fill_n` / stores through a pointer into an array of size `buf.length`
(include/strf/detail/standard_lib_functions.hpp copy_n, str_fill_n). -/
def storeAt {α : Type} (buf : List α) (i : Nat) (xs : List α) : Option (List α) :=
  if i + xs.length ≤ buf.length then some (buf.take i ++ xs ++ buf.drop (i + xs.length)) else none

theorem storeAt_length {α : Type} {buf buf' : List α} {i : Nat} {xs : List α}
    (h : storeAt buf i xs = some buf') : buf'.length = buf.length := by
  unfold storeAt at h
  split at h
  · cases h; simp; omega
  · cases h

theorem storeAt_some {α : Type} {buf : List α} {i : Nat} {xs : List α} (h : i + xs.length ≤ buf.length) :
    ∃ b, storeAt buf i xs = some b ∧ b.length = buf.length ∧ b.take (i + xs.length) = buf.take i ++ xs ∧
      b.take i = buf.take i := by
  refine ⟨_, by unfold storeAt; rw [if_pos h], ?_, ?_, ?_⟩
  · simp; omega
  · rw [List.take_append_of_le_length (by simp; omega)]
    rw [List.take_of_length_le (by simp; omega)]
  · rw [List.append_assoc, List.take_append_of_le_length (by simp; omega), List.take_take]
    congr 1; omega

end Strf.Dest

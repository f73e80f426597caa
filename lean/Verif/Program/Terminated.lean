import Verif.Program.CallProps
import Verif.Print.Terminated
/-!
# C73, C54: calls whose destination is a char array
-/
namespace Strf.Program
open Strf.Print Strf.Dest
open Strf.Format
variable {T : CharT} {B : Int} {ms : List Meaning} {sg : CharT → Bool} {c : Call}

/-- C73, C54 (part): a call prints to a char array of any size, of at least one element, a prefix of its text, terminated inside of the array, and returns a
pointer to the terminator, if the first argument that does not fit has a text of at most 64 units. Missing: when that one is longer it is false
(`Print.to_cstr_terminated_wrong`). -/
theorem call_to_cstr_terminated_partial (h : c.Means T B ms) (arr garb : List Nat) (hs : OverhangOk (arr.length - 1) 0 ms) (hN : 1 ≤ arr.length)
    (hg : garb.length = 64) :
    ∃ its s s' k truncated, c.items Arr.dest T sg = some its ∧ printPlain Arr.dest c.eol its (Arr.initCstr arr garb) = some s ∧
      Arr.finishCstr 0 s = some (s', .user k, truncated) ∧ s'.arr.length = arr.length ∧ k < arr.length ∧ k ≤ (c.text ms).length ∧
      s'.arr.take (k + 1) = (c.text ms).take k ++ [0] ∧ (truncated = false → k = (c.text ms).length) := by
  obtain ⟨its, hi, _⟩ := call_exact_partial (τ := true) (sg := sg) (Arr.lawful arr.length (arr.length - 1)) h
  have hm : ∀ b, AllMean true Arr.dest (fun s t => Arr.RepFrom arr.length (arr.length - 1) b s t) B its ms := by
    intro b
    obtain ⟨its', hi', hm⟩ := call_exact_partial (sg := sg) (Arr.lawfulFrom arr.length (arr.length - 1) b) h
    rw [hi] at hi'
    cases hi'
    exact hm
  obtain ⟨s, s', k, tr, h1, h2⟩ := to_cstr_terminated_partial arr garb hN hg hm hs c.eol
  exact ⟨its, s, s', k, tr, hi, h1, h2⟩

/-- C73, C54 (part): the same for strf::to_range(begin, end), without terminator. -/
theorem call_to_range_end_partial (h : c.Means T B ms) (arr garb : List Nat) (hs : OverhangOk arr.length 0 ms) (hg : garb.length = 64) :
    ∃ its s k truncated, c.items Arr.dest T sg = some its ∧ printPlain Arr.dest c.eol its (Arr.initArray arr garb) = some s ∧
      Arr.finishArray s = (.user k, truncated) ∧ s.arr.length = arr.length ∧ k ≤ arr.length ∧ k ≤ (c.text ms).length ∧
      s.arr.take k = (c.text ms).take k ∧ (truncated = false → k = (c.text ms).length) := by
  obtain ⟨its, hi, _⟩ := call_exact_partial (τ := true) (sg := sg) (Arr.lawful arr.length arr.length) h
  have hm : ∀ b, AllMean true Arr.dest (fun s t => Arr.RepFrom arr.length arr.length b s t) B its ms := by
    intro b
    obtain ⟨its', hi', hm⟩ := call_exact_partial (sg := sg) (Arr.lawfulFrom arr.length arr.length b) h
    rw [hi] at hi'
    cases hi'
    exact hm
  obtain ⟨s, k, tr, h1, h2⟩ := to_range_end_partial arr garb hg hm hs c.eol
  exact ⟨its, s, k, tr, hi, h1, h2⟩

/-- the call of `CallProps` meets the hypotheses, for an array of any size -/
example : ∃ ms, aCall.Means .char8 0 ms ∧ ∀ cap, OverhangOk cap 0 ms := by
  obtain ⟨ms, h, ht⟩ := aCall_means
  refine ⟨ms, h, fun cap => .of_short fun m hm => ?_⟩
  have key : ∀ (l : List Meaning), m ∈ l → m.text.length ≤ (total l).text.length := by
    intro l
    induction l with
    | nil => intro h; cases h
    | cons a l ih =>
      intro h
      simp only [total, List.length_append]
      rcases List.mem_cons.mp h with rfl | h
      · omega
      · have := ih h; omega
  have h1 := key ms hm
  have h2 : (total ms).text.length ≤ (aCall.text ms).length := by
    unfold Call.text
    rw [List.length_append]; omega
  rw [ht] at h2
  have h3 : (Print.txt "x = 1.234.567 0xFFFalseTRUE**-42a21!7, 8\n").length ≤ 64 := by decide +kernel
  omega

/-- a text of 100 units that fits, and one of 3 that does not: in an array of 102 elements -/
example : OverhangOk 101 0 [⟨List.replicate 100 0x61, 0, 0, 0⟩, ⟨[0x62, 0x63, 0x64], 0, 0, 0⟩, ⟨List.replicate 90 0x65, 0, 0, 0⟩] := by
  intro before m after e h1 h2
  rcases before with _ | ⟨b1, before⟩
  · simp at e; obtain ⟨rfl, -⟩ := e; simp [total] at h2
  · rcases before with _ | ⟨b2, before⟩
    · simp at e; obtain ⟨-, rfl, -⟩ := e; simp
    · simp at e; obtain ⟨rfl, rfl, -⟩ := e; simp [total] at h1; omega

end Strf.Program

import Verif.Program.Fits
import Verif.Program.Terminated
/-!
# C78, C54: `tr` to a char array or a range

`tr_string_write` (detail/tr_printer.hpp 397–489) does not look at `good()`: it goes on writing after the truncation, whatever the sizes of the
arguments and of the pieces of the tr-string, so that the end of what was kept is lost after 64 more units.
-/
namespace Strf.Program
open Strf.Format
open Strf.Print (Meaning)
open Strf.Dest (Arr)
open Strf.Tr (Seg missing)

variable {T : CharT} {sg : CharT → Bool} {B : Int} {ms : List Meaning} {c : TrCall} {segs : List Seg} {text : List Nat}

/-- C78, C54 (part): `strf::to(char_array)….tr(str, args...)`, also `.trline`, terminates the array, inside of it, with a prefix of the text before
the terminator, and returns a pointer to the terminator, if the text fits into the array or has at most 64 units. Missing: other texts, for which it is
false (`tr_terminated_wrong`). -/
theorem tr_call_to_cstr_terminated_partial (h : c.Text T B segs ms text) (arr garb : List Nat) (hs : text.length < arr.length ∨ text.length ≤ 64)
    (hN : 1 ≤ arr.length) (hg : garb.length = 64) :
    ∃ s s' k truncated, c.print Arr.dest T sg (Arr.initCstr arr garb) = some (s, missing c.args.length 0 segs) ∧
      Arr.finishCstr 0 s = some (s', .user k, truncated) ∧ s'.arr.length = arr.length ∧ k < arr.length ∧ k ≤ text.length ∧
      s'.arr.take (k + 1) = text.take k ++ [0] ∧ (truncated = false ↔ text.length < arr.length) ∧ (truncated = false → k = text.length) := by
  obtain ⟨⟨s, e, ⟨r, _, l, _⟩, a⟩, _⟩ := tr_call_after (sg := sg) (Arr.lawfulFrom arr.length (arr.length - 1) 0) h _ []
    (Arr.RepFrom.of_good (Arr.rep_initCstr arr garb hg) rfl (Nat.zero_le _))
  rw [List.nil_append] at r l
  obtain ⟨f1, f2⟩ := Arr.fits_cstr 0 hN r a
  obtain ⟨_, g2, g3, _, g5⟩ := Arr.finishCstr_of_rep 0 r (by omega)
  by_cases hf : text.length < arr.length
  · obtain ⟨s', es, hl, ht⟩ := f1 hf
    exact ⟨s, s', text.length, false, e, es, hl, hf, Nat.le_refl _, by rw [ht, List.take_length], by simp [hf], fun _ => rfl⟩
  · have h64 : text.length ≤ 64 := hs.resolve_left hf
    obtain ⟨hb, ht⟩ := f2 (by omega)
    have hsome := g2.1 (.inr fun hi => by have := l hb hi; omega)
    obtain ⟨⟨s', p, tr⟩, es⟩ := Option.isSome_iff_exists.mp hsome
    obtain ⟨hl, k, hp, hk1, hk2, hk3, hk4, _⟩ := g5 s' p tr es
    have htr := ht s' p tr es
    exact ⟨s, s', k, tr, e, by rw [es, hp], hl, hk1, hk2, hk3, by simp [htr, hf], hk4⟩

/-- C78, C54 (part): `strf::to_range(begin, end)….tr(str, args...)` returns a pointer in the range, to the end of the prefix of the text that is there,
under the same condition. -/
theorem tr_call_to_range_end_partial (h : c.Text T B segs ms text) (arr garb : List Nat) (hs : text.length ≤ arr.length ∨ text.length ≤ 64)
    (hg : garb.length = 64) :
    ∃ s k truncated, c.print Arr.dest T sg (Arr.initArray arr garb) = some (s, missing c.args.length 0 segs) ∧
      Arr.finishArray s = (.user k, truncated) ∧ s.arr.length = arr.length ∧ k ≤ arr.length ∧ k ≤ text.length ∧
      s.arr.take k = text.take k ∧ (truncated = true ↔ arr.length < text.length) ∧ (truncated = false → k = text.length) := by
  obtain ⟨⟨s, e, ⟨r, _, l, _⟩, a⟩, _⟩ := tr_call_after (sg := sg) (Arr.lawfulFrom arr.length arr.length 0) h _ []
    (Arr.RepFrom.of_good (Arr.rep_initArray arr garb hg) rfl (Nat.zero_le _))
  rw [List.nil_append] at r l
  obtain ⟨f1, f2⟩ := Arr.fits_range r a
  obtain ⟨h1, h2, k, h3, h4, h5, h6, _, h8⟩ := Arr.finishArray_of_rep r rfl
  refine ⟨s, k, (Arr.finishArray s).2, e, ?_, h1, h4, h3, h5, f1, h6⟩
  rcases h8 with h8 | ⟨hb, h8⟩
  · exact Prod.ext h8 rfl
  · have hgd : s.good = false := by simpa [Arr.finishArray] using hb
    have hi : (Arr.finishArray s).1 = s.it := by simp [Arr.finishArray, hgd]
    have hlt := f1.mp hb
    have := l hgd (hi.symm.trans h8)
    omega

/-! ### with classes of the user's -/

open Strf.Override Strf.Direct in
/-- C54 (part) with types and overriders of the user's: as call_to_cstr_terminated_partial -/
theorem ucall_to_cstr_terminated_partial {ω υ π : Type} {cl : Classes ω υ π} {M : π → Int → Meaning → Prop} {c : UCall ω υ} (HM : PrintersOk true cl M)
    (h : c.Means T cl M B ms) (arr garb : List Nat) (hs : Print.OverhangOk (arr.length - 1) 0 ms) (hN : 1 ≤ arr.length) (hg : garb.length = 64) :
    ∃ n its s s' k truncated, (∀ k, n ≤ k → c.items Arr.dest T sg cl k = some its) ∧ Print.printPlain Arr.dest c.eol its (Arr.initCstr arr garb) = some s ∧
      Arr.finishCstr 0 s = some (s', .user k, truncated) ∧ s'.arr.length = arr.length ∧ k < arr.length ∧ k ≤ (c.text ms).length ∧
      s'.arr.take (k + 1) = (c.text ms).take k ++ [0] ∧ (truncated = false → k = (c.text ms).length) := by
  obtain ⟨n, its, hi, _⟩ := ucall_exact_partial (τ := true) (sg := sg) (Arr.lawful arr.length (arr.length - 1)) HM h
  have hm : ∀ b, Print.AllMean true Arr.dest (fun s t => Arr.RepFrom arr.length (arr.length - 1) b s t) B its ms := by
    intro b
    obtain ⟨n', its', hi', hm⟩ := ucall_exact_partial (sg := sg) (Arr.lawfulFrom arr.length (arr.length - 1) b) HM h
    have e := (hi (max n n') (Nat.le_max_left _ _)).symm.trans (hi' _ (Nat.le_max_right _ _))
    cases e
    exact hm
  obtain ⟨s, s', k, tr, h1, h2⟩ := Print.to_cstr_terminated_partial arr garb hN hg hm hs c.eol
  exact ⟨n, its, s, s', k, tr, hi, h1, h2⟩

open Strf.Override Strf.Direct in
/-- C54 (part) with classes that have `print` -/
theorem says_to_cstr_terminated_partial {ω υ π ρ : Type} {cl : PClasses ω υ π ρ} {M : π → Int → Meaning → Prop} {W : ρ → List Nat → Prop} {c : UCall ω υ}
    {ts : List (List Nat)} (H : ClassesOk true cl M W) (h : CallSays T cl M W c ts) (arr garb : List Nat)
    (hs : Print.OverhangOk (arr.length - 1) 0 (plainly ts)) (hN : 1 ≤ arr.length) (hg : garb.length = 64) :
    ∃ n its s s' k truncated, (∀ k, n ≤ k → callItems Arr.dest T sg cl k (.nothing .direct) c = some its) ∧
      Print.printPlain Arr.dest c.eol its (Arr.initCstr arr garb) = some s ∧
      Arr.finishCstr 0 s = some (s', .user k, truncated) ∧ s'.arr.length = arr.length ∧ k < arr.length ∧ k ≤ (said c ts).length ∧
      s'.arr.take (k + 1) = (said c ts).take k ++ [0] ∧ (truncated = false → k = (said c ts).length) := by
  obtain ⟨n, its, hi, hw⟩ := says_call_partial (τ := true) (sg := sg) (Arr.lawful arr.length (arr.length - 1)) H h
  have hm : ∀ b, Print.AllMean true Arr.dest (fun s t => Arr.RepFrom arr.length (arr.length - 1) b s t) 0 (measurableAll its ts) (plainly ts) := by
    intro b
    obtain ⟨n', its', hi', hw'⟩ := says_call_partial (τ := true) (sg := sg) (Arr.lawfulFrom arr.length (arr.length - 1) b) H h
    have e := (hi (max n n') (Nat.le_max_left _ _)).symm.trans (hi' _ (Nat.le_max_right _ _))
    cases e
    exact hw'.means 0
  obtain ⟨s, s', k, tr, h1, h2⟩ := Print.to_cstr_terminated_partial arr garb hN hg hm hs c.eol
  rw [said_eq] at h2
  exact ⟨n, its, s, s', k, tr, hi, by rw [← hw.plain]; exact h1, h2⟩

/-! ### tr is truncated -/

/-- `….tr("{0}{0}{0}{0}{0}{0}{0}{0}", "aaaaaaaaaa")` -/
def repeated : TrCall where
  withs := []
  facets := []
  args := [.str .char [] (List.replicate 10 0x61)]
  eol := false
  str := Print.txt "{0}{0}{0}{0}{0}{0}{0}{0}"

/-- C54, C78 are false of the code for `tr` when a text of more than 64 units does not fit, even if all arguments and the tr-string are short: in
`char b[4]; strf::to(b).tr("{0}{0}{0}{0}{0}{0}{0}{0}", "aaaaaaaaaa")` the array is left without terminator, and the zero is stored one past the garbage
buffer; and `strf::to_range(b, b + 4)` returns a pointer to there. -/
theorem tr_terminated_wrong :
    (∃ s ps, repeated.print Arr.dest .char (fun _ => false) (Arr.initCstr [1, 1, 1, 1] (List.replicate 64 0)) = some (s, ps) ∧
      s.arr = [0x61, 0x61, 0x61, 1] ∧ Arr.finishCstr 0 s = none) ∧
    ∃ s ps, repeated.print Arr.dest .char (fun _ => false) (Arr.initArray [1, 1, 1, 1] (List.replicate 64 0)) = some (s, ps) ∧
      Arr.finishArray s = (.garbage 64, true) := by
  have h1 : (repeated.print Arr.dest .char (fun _ => false) (Arr.initCstr [1, 1, 1, 1] (List.replicate 64 0))).map
      (fun s => (s.1.arr, (Arr.finishCstr 0 s.1).isNone)) = some ([0x61, 0x61, 0x61, 1], true) := by decide +kernel
  have h2 : (repeated.print Arr.dest .char (fun _ => false) (Arr.initArray [1, 1, 1, 1] (List.replicate 64 0))).map
      (fun s => Arr.finishArray s.1) = some (.garbage 64, true) := by decide +kernel
  constructor
  · obtain ⟨⟨s, ps⟩, e, h⟩ := Option.map_eq_some_iff.mp h1
    rw [Prod.mk.injEq] at h
    exact ⟨s, ps, e, h.1, Option.isNone_iff_eq_none.mp h.2⟩
  · obtain ⟨⟨s, ps⟩, e, h⟩ := Option.map_eq_some_iff.mp h2
    exact ⟨s, ps, e, h⟩

/-- with two of the eight references it is terminated -/
example : (TrCall.print Arr.dest .char (fun _ => false) { repeated with str := Print.txt "{0}{0}" }
      (Arr.initCstr [1, 1, 1, 1] (List.replicate 64 0))).bind (fun s => (Arr.finishCstr 0 s.1).map fun r => (r.1.arr, r.2.1, r.2.2)) =
    some ([0x61, 0x61, 0x61, 0], .user 3, true) := by decide +kernel

/-- the call of TrCallProps meets the hypotheses, for every array in which it fits -/
example : ∃ segs ms text, aTrCall.Text .char8 0 segs ms text ∧ ∀ n, text.length < n → text.length < (List.replicate n 0).length ∨ text.length ≤ 64 := by
  obtain ⟨segs, ms, text, h⟩ := aTrCall_means
  exact ⟨segs, ms, text, h, fun n hn => .inl (by simpa using hn)⟩

end Strf.Program

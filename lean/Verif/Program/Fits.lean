import Verif.Print.Fits
import Verif.Program.TrCallProps
import Verif.Override.CallProps
import Verif.Direct.CallProps
/-!
# C93, C94, C95 for whole calls
-/
namespace Strf.Program
open Strf.Format
open Strf.Print (Item Meaning AllMean total printPlain printCalc lineText)
open Strf.Dest (Dest Lawful Maker Sized Appender Writer World Arr)
open Strf.Tr (Seg missing)

variable {T : CharT} {sg : CharT → Bool} {B : Int} {c : Call} {ms : List Meaning}

/-- C93 (part): `strf::to(char_array)…(args...)`, also `.line`. Missing: as in call_exact_partial, what is false of the printers of the arguments. -/
theorem call_to_cstr_fits_partial (h : c.Means T B ms) (arr garb : List Nat) (hN : 1 ≤ arr.length) (hg : garb.length = 64) :
    ∃ its s, c.items Arr.dest T sg = some its ∧ printPlain Arr.dest c.eol its (Arr.initCstr arr garb) = some s ∧
      ((c.text ms).length < arr.length → ∃ s', Arr.finishCstr 0 s = some (s', .user (c.text ms).length, false) ∧
        s'.arr.length = arr.length ∧ s'.arr.take ((c.text ms).length + 1) = c.text ms ++ [0]) ∧
      (arr.length ≤ (c.text ms).length → s.good = false ∧ ∀ s' p truncated, Arr.finishCstr 0 s = some (s', p, truncated) → truncated = true) := by
  obtain ⟨its, hi, hm⟩ := call_exact_partial (τ := true) (sg := sg) (Arr.lawful arr.length (arr.length - 1)) h
  obtain ⟨s, e, r⟩ := Print.to_cstr_fits arr garb hN hg hm c.eol
  exact ⟨its, s, hi, e, r⟩

/-- C93: `strf::to_range(begin, end)…(args...)` -/
theorem call_to_range_fits_partial (h : c.Means T B ms) (arr garb : List Nat) (hg : garb.length = 64) :
    ∃ its s, c.items Arr.dest T sg = some its ∧ printPlain Arr.dest c.eol its (Arr.initArray arr garb) = some s ∧
      ((Arr.finishArray s).2 = true ↔ arr.length < (c.text ms).length) ∧
      ((c.text ms).length ≤ arr.length → Arr.finishArray s = (.user (c.text ms).length, false) ∧
        s.arr.length = arr.length ∧ s.arr.take (c.text ms).length = c.text ms) := by
  obtain ⟨its, hi, hm⟩ := call_exact_partial (τ := true) (sg := sg) (Arr.lawful arr.length arr.length) h
  obtain ⟨s, e, r⟩ := Print.to_range_fits arr garb hg hm c.eol
  exact ⟨its, s, hi, e, r⟩

/-- C94 (part): `to_string.reserve(n)…(args...)` with enough room, and `to_string.reserve_calc()…(args...)` -/
theorem call_to_string_reserve_fits_partial (h : c.Means T B ms) :
    (∀ n, (c.text ms).length ≤ n → ∃ its s, c.items (Sized.dest 0) T sg = some its ∧
      printPlain (Sized.dest 0) c.eol its (Sized.init 0 n) = some s ∧ s.str.length = max n 1 ∧ Sized.finish s = c.text ms) ∧
    ∃ its, c.items (Sized.dest 0) T sg = some its ∧ ∀ order : List Nat, order.Perm (List.range its.length) →
      ∃ s, printCalc (Sized.dest 0) c.eol its order (Sized.init 0) = some s ∧ s.str.length = max (c.text ms).length 1 ∧ Sized.finish s = c.text ms := by
  constructor
  · intro n hn
    obtain ⟨its, hi, hm⟩ := call_exact_partial (τ := true) (sg := sg) (Sized.lawfulN 0 (Sized.sizeFor n)) h
    obtain ⟨s, e, r⟩ := (Print.to_string_reserve_fits n hm c.eol hn).1
    exact ⟨its, s, hi, e, r⟩
  · obtain ⟨its, hi, hm⟩ := call_exact_partial (τ := true) (sg := sg) (Sized.lawfulN 0 (Sized.sizeFor (c.text ms).length)) h
    exact ⟨its, hi, (Print.to_string_reserve_fits _ hm c.eol (Nat.le_refl _)).2 rfl⟩

/-- C95 (part): `strf::to(FILE*)…(args...)` -/
theorem call_to_cfile_fits_partial (h : c.Means T B ms) (acc : World Nat) (junk : List Nat) (hj : 64 ≤ junk.length) (hn : (c.text ms).length ≤ junk.length) :
    ∃ its s, c.items (Writer.cfile acc) T sg = some its ∧ printPlain (Writer.cfile acc) c.eol its (Writer.init junk) = some s ∧ s.calls = 0 ∧ s.file = [] ∧
      (Writer.finish acc s).1.calls = 1 ∧ (Writer.finish acc s).1.file = (c.text ms).take (acc 0 [] (c.text ms)) := by
  obtain ⟨its, hi, hm⟩ := call_exact_partial (τ := true) (sg := sg) (Writer.lawfulOnce acc junk.length) h
  obtain ⟨s, e, r⟩ := Print.to_cfile_fits acc junk hj hm c.eol hn
  exact ⟨its, s, hi, e, r⟩

/-- C95: `strf::to(streambuf)…(args...)` -/
theorem call_to_streambuf_fits_partial (h : c.Means T B ms) (acc : World Nat) (junk : List Nat) (hj : 64 ≤ junk.length) (hn : (c.text ms).length ≤ junk.length) :
    ∃ its s, c.items (Writer.streambuf acc) T sg = some its ∧ printPlain (Writer.streambuf acc) c.eol its (Writer.init junk) = some s ∧ s.calls = 0 ∧ s.file = [] ∧
      (Writer.finishSb acc s).1.calls = 1 ∧ (Writer.finishSb acc s).1.file = (c.text ms).take (acc 0 [] (c.text ms)) := by
  obtain ⟨its, hi, hm⟩ := call_exact_partial (τ := true) (sg := sg) (Writer.lawfulOnceSb acc junk.length) h
  obtain ⟨s, e, r⟩ := Print.to_streambuf_fits acc junk hj hm c.eol hn
  exact ⟨its, s, hi, e, r⟩

/-! ### `tr` -/

/-- C93: `strf::to(char_array)….tr(str, args...)`, also `.trline` -/
theorem tr_call_to_cstr_fits_partial {c : TrCall} {segs : List Seg} {text : List Nat} (h : c.Text T B segs ms text) (arr garb : List Nat)
    (hN : 1 ≤ arr.length) (hg : garb.length = 64) :
    ∃ s, c.print Arr.dest T sg (Arr.initCstr arr garb) = some (s, missing c.args.length 0 segs) ∧
      (text.length < arr.length → ∃ s', Arr.finishCstr 0 s = some (s', .user text.length, false) ∧
        s'.arr.length = arr.length ∧ s'.arr.take (text.length + 1) = text ++ [0]) ∧
      (arr.length ≤ text.length → s.good = false ∧ ∀ s' p truncated, Arr.finishCstr 0 s = some (s', p, truncated) → truncated = true) := by
  obtain ⟨⟨s, e, r, a⟩, _⟩ := tr_call_after (sg := sg) (Arr.lawful arr.length (arr.length - 1)) h _ [] (Arr.rep_initCstr arr garb hg)
  exact ⟨s, e, Arr.fits_cstr 0 hN (by simpa using r) a⟩

/-- C93: `strf::to_range(begin, end)….tr(str, args...)` -/
theorem tr_call_to_range_fits_partial {c : TrCall} {segs : List Seg} {text : List Nat} (h : c.Text T B segs ms text) (arr garb : List Nat) (hg : garb.length = 64) :
    ∃ s, c.print Arr.dest T sg (Arr.initArray arr garb) = some (s, missing c.args.length 0 segs) ∧
      ((Arr.finishArray s).2 = true ↔ arr.length < text.length) ∧
      (text.length ≤ arr.length → Arr.finishArray s = (.user text.length, false) ∧ s.arr.length = arr.length ∧ s.arr.take text.length = text) := by
  obtain ⟨⟨s, e, r, a⟩, _⟩ := tr_call_after (sg := sg) (Arr.lawful arr.length arr.length) h _ [] (Arr.rep_initArray arr garb hg)
  exact ⟨s, e, Arr.fits_range (by simpa using r) a⟩

/-- C94: `to_string.reserve(n)….tr(str, args...)` and `to_string.reserve_calc()….tr(str, args...)` -/
theorem tr_call_to_string_reserve_fits_partial {c : TrCall} {segs : List Seg} {text : List Nat} (h : c.Text T B segs ms text) :
    (∀ n, text.length ≤ n → ∃ s, c.print (Sized.dest 0) T sg (Sized.init 0 n) = some (s, missing c.args.length 0 segs) ∧
      s.str.length = max n 1 ∧ Sized.finish s = text) ∧
    ∃ s, c.printCalc (Sized.dest 0) T sg (Sized.init 0) = some (s, missing c.args.length 0 segs) ∧
      s.str.length = max text.length 1 ∧ Sized.finish s = text := by
  have hs : ∀ n, Sized.sizeFor n = max n 1 := by intro n; unfold Sized.sizeFor; split <;> omega
  constructor
  · intro n hn
    obtain ⟨⟨s, e, r, a⟩, _⟩ := tr_call_after (sg := sg) (Sized.lawfulN 0 (Sized.sizeFor n)) h _ [] (Sized.repN_init 0 n)
    rw [List.nil_append] at r
    exact ⟨s, e, (Sized.fits r a hn).trans (hs n), Sized.finish_of_rep r.1⟩
  · obtain ⟨_, k⟩ := tr_call_after (sg := sg) (Sized.lawfulN 0 (Sized.sizeFor text.length)) h _ [] (Sized.repN_init 0 text.length)
    obtain ⟨s, e, r, a⟩ := k (Sized.init 0) rfl
    rw [List.nil_append] at r
    exact ⟨s, e, (Sized.fits r a (Nat.le_refl _)).trans (hs _), Sized.finish_of_rep r.1⟩

/-- C95: `strf::to(FILE*)….tr(str, args...)` -/
theorem tr_call_to_cfile_fits_partial {c : TrCall} {segs : List Seg} {text : List Nat} (h : c.Text T B segs ms text) (acc : World Nat) (junk : List Nat)
    (hj : 64 ≤ junk.length) (hn : text.length ≤ junk.length) :
    ∃ s, c.print (Writer.cfile acc) T sg (Writer.init junk) = some (s, missing c.args.length 0 segs) ∧ s.calls = 0 ∧ s.file = [] ∧
      (Writer.finish acc s).1.calls = 1 ∧ (Writer.finish acc s).1.file = text.take (acc 0 [] text) := by
  obtain ⟨⟨s, e, r, a⟩, _⟩ := tr_call_after (sg := sg) (Writer.lawfulOnce acc junk.length) h _ [] ⟨Writer.rep_init hj, Writer.once_init junk⟩
  rw [List.nil_append] at r
  exact ⟨s, e, Writer.fits r.1 r.2 a hn⟩

/-! ### with classes of the user's -/

open Strf.Override Strf.Direct in
/-- C93 with types and overriders of the user's, whose printers ask for no more room than they need -/
theorem ucall_to_cstr_fits_partial {ω υ π : Type} {cl : Classes ω υ π} {M : π → Int → Meaning → Prop} {c : UCall ω υ} (HM : PrintersOk true cl M)
    (h : c.Means T cl M B ms) (arr garb : List Nat) (hN : 1 ≤ arr.length) (hg : garb.length = 64) :
    ∃ n its s, (∀ k, n ≤ k → c.items Arr.dest T sg cl k = some its) ∧ printPlain Arr.dest c.eol its (Arr.initCstr arr garb) = some s ∧
      ((c.text ms).length < arr.length → ∃ s', Arr.finishCstr 0 s = some (s', .user (c.text ms).length, false) ∧
        s'.arr.length = arr.length ∧ s'.arr.take ((c.text ms).length + 1) = c.text ms ++ [0]) ∧
      (arr.length ≤ (c.text ms).length → s.good = false ∧ ∀ s' p truncated, Arr.finishCstr 0 s = some (s', p, truncated) → truncated = true) := by
  obtain ⟨n, its, hi, hm⟩ := ucall_exact_partial (τ := true) (sg := sg) (Arr.lawful arr.length (arr.length - 1)) HM h
  obtain ⟨s, e, r⟩ := Print.to_cstr_fits arr garb hN hg hm c.eol
  exact ⟨n, its, s, hi, e, r⟩

open Strf.Override Strf.Direct in
/-- C93 with classes that have `print` -/
theorem says_to_cstr_fits_partial {ω υ π ρ : Type} {cl : PClasses ω υ π ρ} {M : π → Int → Meaning → Prop} {W : ρ → List Nat → Prop} {c : UCall ω υ} {ts : List (List Nat)}
    (H : ClassesOk true cl M W) (h : CallSays T cl M W c ts) (arr garb : List Nat) (hN : 1 ≤ arr.length) (hg : garb.length = 64) :
    ∃ n its s, (∀ k, n ≤ k → callItems Arr.dest T sg cl k (.nothing .direct) c = some its) ∧ printPlain Arr.dest c.eol its (Arr.initCstr arr garb) = some s ∧
      ((said c ts).length < arr.length → ∃ s', Arr.finishCstr 0 s = some (s', .user (said c ts).length, false) ∧
        s'.arr.length = arr.length ∧ s'.arr.take ((said c ts).length + 1) = said c ts ++ [0]) ∧
      (arr.length ≤ (said c ts).length → s.good = false ∧ ∀ s' p truncated, Arr.finishCstr 0 s = some (s', p, truncated) → truncated = true) := by
  obtain ⟨n, its, hi, hw⟩ := says_call_partial (τ := true) (sg := sg) (Arr.lawful arr.length (arr.length - 1)) H h
  obtain ⟨s, e, r⟩ := Print.to_cstr_fits arr garb hN hg (hw.means 0) c.eol
  rw [said_eq] at r
  exact ⟨n, its, s, hi, by rw [← hw.plain]; exact e, r⟩

/-! ### cases -/

/-- the text of `aCall` has 41 units: it fits a char[42], as the theorem says -/
example (garb : List Nat) (hg : garb.length = 64) : ∃ its s s', aCall.items Arr.dest .char8 sg = some its ∧
    printPlain Arr.dest true its (Arr.initCstr (List.replicate 42 1) garb) = some s ∧ Arr.finishCstr 0 s = some (s', .user 41, false) ∧
      s'.arr = Print.txt "x = 1.234.567 0xFFFalseTRUE**-42a21!7, 8\n" ++ [0] := by
  obtain ⟨ms, h, ht⟩ := aCall_means
  obtain ⟨its, s, hi, e, k, _⟩ := call_to_cstr_fits_partial (sg := sg) h (List.replicate 42 1) garb (by decide) hg
  rw [ht] at k
  obtain ⟨s', e', hl, hk⟩ := k (by decide)
  refine ⟨its, s, s', hi, e, e', ?_⟩
  rw [← hk, List.take_of_length_le]
  rw [hl]; decide

/-- and the string that reserve_calc creates for it is never resized -/
example : ∃ its s, aCall.items (Sized.dest 0) .char8 sg = some its ∧
    printPlain (Sized.dest 0) true its (Sized.init 0 41) = some s ∧ s.str.length = 41 := by
  obtain ⟨ms, h, ht⟩ := aCall_means
  obtain ⟨its, s, hi, e, k, _⟩ := (call_to_string_reserve_fits_partial (sg := sg) h).1 41 (by rw [ht]; decide)
  exact ⟨its, s, hi, e, k⟩

/-- with one less it would be -/
example : ((aCall.items (Sized.dest 0) .char8 fun _ => false).bind fun its => (printPlain (Sized.dest 0) true its (Sized.init 0 40)).map (·.str.length)) = some 104 := by
  decide +kernel

end Strf.Program

import Verif.Print.PolicyProps
import Verif.Dest.Fits
/-!
# C93, C94, C95: a text for which there is room from the start
-/
namespace Strf.Print
open Strf.Dest (Dest Lawful After Prints Maker Sized Appender Writer World Arr Discarder)

variable {B : Int}

/-- C93: strf::to(char_array)(args...) and .line(args...) for an array of N ≥ 1 elements: a text of less than N units is all in the array, terminated, and the
result says so; a text of N units or more is truncated, and the result says so (if finish() has no undefined behaviour, C54). -/
theorem to_cstr_fits (arr garb : List Nat) (hN : 1 ≤ arr.length) (hg : garb.length = 64) {its : List (Item (Arr Nat))} {ms : List Meaning}
    (h : AllMean true Arr.dest (fun s t => Arr.Rep arr.length (arr.length - 1) s t) B its ms) (eol : Bool) :
    ∃ s, printPlain Arr.dest eol its (Arr.initCstr arr garb) = some s ∧
      ((lineText eol (total ms).text).length < arr.length → ∃ s', Arr.finishCstr 0 s = some (s', .user (lineText eol (total ms).text).length, false) ∧
        s'.arr.length = arr.length ∧ s'.arr.take ((lineText eol (total ms).text).length + 1) = lineText eol (total ms).text ++ [0]) ∧
      (arr.length ≤ (lineText eol (total ms).text).length →
        s.good = false ∧ ∀ s' p truncated, Arr.finishCstr 0 s = some (s', p, truncated) → truncated = true) := by
  obtain ⟨s, e, r, a⟩ := printPlain_prints (Arr.lawful _ _) eol h _ [] (Arr.rep_initCstr arr garb hg)
  exact ⟨s, e, Arr.fits_cstr 0 hN (by simpa using r) a⟩

/-- C93: strf::to_range(begin, end)(args...): a text is truncated just if it is longer than the range, and the result says so. -/
theorem to_range_fits (arr garb : List Nat) (hg : garb.length = 64) {its : List (Item (Arr Nat))} {ms : List Meaning}
    (h : AllMean true Arr.dest (fun s t => Arr.Rep arr.length arr.length s t) B its ms) (eol : Bool) :
    ∃ s, printPlain Arr.dest eol its (Arr.initArray arr garb) = some s ∧
      ((Arr.finishArray s).2 = true ↔ arr.length < (lineText eol (total ms).text).length) ∧
      ((lineText eol (total ms).text).length ≤ arr.length → Arr.finishArray s = (.user (lineText eol (total ms).text).length, false) ∧
        s.arr.length = arr.length ∧ s.arr.take (lineText eol (total ms).text).length = lineText eol (total ms).text) := by
  obtain ⟨s, e, r, a⟩ := printPlain_prints (Arr.lawful _ _) eol h _ [] (Arr.rep_initArray arr garb hg)
  exact ⟨s, e, Arr.fits_range (by simpa using r) a⟩

/-- C94: strf::to_string.reserve(n)(args...), when the text has no more than `n` units, and strf::to_string.reserve_calc()(args...): the string has, when finish() is
called, the size it was created with: it has not been resized. -/
theorem to_string_reserve_fits (n : Nat) {its : List (Item (Sized Nat))} {ms : List Meaning}
    (h : AllMean true (Sized.dest 0) (Sized.RepN (Sized.sizeFor n)) B its ms) (eol : Bool) (hn : (lineText eol (total ms).text).length ≤ n) :
    (∃ s, printPlain (Sized.dest 0) eol its (Sized.init 0 n) = some s ∧ s.str.length = max n 1 ∧ Sized.finish s = lineText eol (total ms).text) ∧
    (n = (lineText eol (total ms).text).length → ∀ order : List Nat, order.Perm (List.range its.length) →
      ∃ s, printCalc (Sized.dest 0) eol its order (Sized.init 0) = some s ∧ s.str.length = max (lineText eol (total ms).text).length 1 ∧
        Sized.finish s = lineText eol (total ms).text) := by
  have hs : Sized.sizeFor n = max n 1 := by unfold Sized.sizeFor; split <;> omega
  constructor
  · obtain ⟨s, e, r, a⟩ := printPlain_prints (Sized.lawfulN 0 _) eol h _ [] (Sized.repN_init 0 n)
    have r := (by simpa using r : Sized.RepN (Sized.sizeFor n) s (lineText eol (total ms).text))
    exact ⟨s, e, (Sized.fits r a hn).trans hs, Sized.finish_of_rep r.1⟩
  · rintro rfl order ho
    obtain ⟨pr, hp, hc⟩ := printCalc_spec (Sized.lawfulN 0 _) eol h order ho
    obtain ⟨s, e, r, a⟩ := hp _ [] (Sized.repN_init 0 _)
    have r := (by simpa using r : Sized.RepN (Sized.sizeFor _) s (lineText eol (total ms).text))
    exact ⟨s, by rw [hc]; exact e, (Sized.fits r a hn).trans hs, Sized.finish_of_rep r.1⟩

/-- C95: strf::to(FILE*)(args...): nothing is written to the file before finish(), which writes it all with one call, when the text fits the buffer of the writer. -/
theorem to_cfile_fits (acc : World Nat) (junk : List Nat) (hj : 64 ≤ junk.length) {its : List (Item (Writer Nat))} {ms : List Meaning}
    (h : AllMean true (Writer.cfile acc) (fun s t => Writer.Rep s t ∧ Writer.Once junk.length s) B its ms) (eol : Bool)
    (hn : (lineText eol (total ms).text).length ≤ junk.length) :
    ∃ s, printPlain (Writer.cfile acc) eol its (Writer.init junk) = some s ∧ s.calls = 0 ∧ s.file = [] ∧
      (Writer.finish acc s).1.calls = 1 ∧
      (Writer.finish acc s).1.file = (lineText eol (total ms).text).take (acc 0 [] (lineText eol (total ms).text)) := by
  obtain ⟨s, e, r, a⟩ := printPlain_prints (Writer.lawfulOnce acc _) eol h _ [] ⟨Writer.rep_init hj, Writer.once_init junk⟩
  rw [List.nil_append] at r
  exact ⟨s, e, Writer.fits r.1 r.2 a hn⟩

/-- C95: the same for strf::to(streambuf)(args...). -/
theorem to_streambuf_fits (acc : World Nat) (junk : List Nat) (hj : 64 ≤ junk.length) {its : List (Item (Writer Nat))} {ms : List Meaning}
    (h : AllMean true (Writer.streambuf acc) (fun s t => Writer.RepSb s t ∧ Writer.Once junk.length s) B its ms) (eol : Bool)
    (hn : (lineText eol (total ms).text).length ≤ junk.length) :
    ∃ s, printPlain (Writer.streambuf acc) eol its (Writer.init junk) = some s ∧ s.calls = 0 ∧ s.file = [] ∧
      (Writer.finishSb acc s).1.calls = 1 ∧
      (Writer.finishSb acc s).1.file = (lineText eol (total ms).text).take (acc 0 [] (lineText eol (total ms).text)) := by
  obtain ⟨s, e, r, a⟩ := printPlain_prints (Writer.lawfulOnceSb acc _) eol h _ [] ⟨Writer.repSb_init hj, Writer.once_init junk⟩
  rw [List.nil_append] at r
  exact ⟨s, e, Writer.fitsSb r.1 r.2 a hn⟩

end Strf.Print

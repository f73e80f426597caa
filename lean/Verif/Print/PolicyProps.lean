import Verif.Print.Policies
import Verif.Dest.ArraysRep
import Verif.Print.StringProps
/-!
# Properties C45, C52 and C53: the result of printing, whatever the reserve policy and the destination
-/
namespace Strf.Print
open Strf.Width
open Strf.Dest (Dest Lawful Prints Maker Sized Appender Writer World Arr Discarder)
open Strf.Tr

variable {σ : Type} {D : Dest Nat σ} {Rep : σ → List Nat → Prop} {B : Int}

/-- C52: strf::to_string(args...) and strf::to_string.line(args...) return the texts of the arguments, one after the
other (and the end of line). -/
theorem to_string_exact {its : List (Item (Maker Nat))} {ms : List Meaning}
    (h : AllMean τ Maker.dest (fun s t => Maker.Rep s t) B its ms) (eol : Bool) (junk : List Nat) (hj : junk.length = 64) :
    ∃ s, printPlain Maker.dest eol its (Maker.init junk) = some s ∧
      (Maker.finishE true s).2 = some (lineText eol (total ms).text) := by
  obtain ⟨s, e, r, _⟩ := printPlain_prints Maker.lawful eol h (Maker.init junk) [] (Maker.rep_init hj)
  exact ⟨s, e, Maker.finish_of_rep (by simpa using r)⟩

/-- C45, C52: so does strf::to_string.reserve(n)(args...), whatever `n`; and strf::to_string.reserve_calc()(args...), in
whatever order the compiler evaluates the calls to make_printer, and the string is created with exactly the size of
the result. -/
theorem to_string_reserve_exact {its : List (Item (Sized Nat))} {ms : List Meaning}
    (h : AllMean τ (Sized.dest 0) (fun s t => Sized.Rep s t) B its ms) (eol : Bool) :
    (∀ n, ∃ s, printPlain (Sized.dest 0) eol its (Sized.init 0 n) = some s ∧
      Sized.finish s = lineText eol (total ms).text) ∧
    ∀ order : List Nat, order.Perm (List.range its.length) →
      ∃ s, printCalc (Sized.dest 0) eol its order (Sized.init 0) = some s ∧
        Sized.finish s = lineText eol (total ms).text ∧
        ∀ create : Nat → Sized Nat, create (lineText eol (total ms).text).length = Sized.init 0 (lineText eol (total ms).text).length →
          printCalc (Sized.dest 0) eol its order create = some s := by
  constructor
  · intro n
    obtain ⟨s, e, r, _⟩ := printPlain_prints (Sized.lawful 0) eol h (Sized.init 0 n) [] (Sized.rep_init 0 n)
    exact ⟨s, e, Sized.finish_of_rep (by simpa using r)⟩
  · intro order ho
    obtain ⟨pr, hp, hc⟩ := printCalc_spec (Sized.lawful 0) eol h order ho
    obtain ⟨s, e, r, _⟩ := hp (Sized.init 0 (lineText eol (total ms).text).length) [] (Sized.rep_init 0 _)
    refine ⟨s, by rw [hc]; exact e, Sized.finish_of_rep (by simpa using r), ?_⟩
    intro create hcr
    rw [hc, hcr]; exact e

/-- C52: strf::append(str)(args...) appends that text to the string, with any policy (which only reserves memory). -/
theorem append_exact {start : List Nat} {its : List (Item (Appender Nat))} {ms : List Meaning}
    (h : AllMean τ Appender.dest (fun s t => Appender.Rep start s t) B its ms) (eol : Bool) (junk : List Nat)
    (hj : junk.length = 64) :
    (∃ s, printPlain Appender.dest eol its (Appender.init start junk) = some s ∧
      (Appender.destroyE true (Appender.finishE true s).1).str = start ++ lineText eol (total ms).text) ∧
    ∀ order : List Nat, order.Perm (List.range its.length) →
      ∃ s, printCalc Appender.dest eol its order (fun _ => Appender.init start junk) = some s ∧
        (Appender.destroyE true (Appender.finishE true s).1).str = start ++ lineText eol (total ms).text := by
  constructor
  · obtain ⟨s, e, r, _⟩ := printPlain_prints (Appender.lawful start) eol h _ [] (Appender.rep_init start hj)
    exact ⟨s, e, Appender.finish_of_rep (by simpa using r)⟩
  · intro order ho
    obtain ⟨pr, hp, hc⟩ := printCalc_spec (Appender.lawful start) eol h order ho
    obtain ⟨s, e, r, _⟩ := hp _ [] (Appender.rep_init start hj)
    exact ⟨s, by rw [hc]; exact e, Appender.finish_of_rep (by simpa using r)⟩

/-- C52: strf::to(FILE*)(args...): the file receives a prefix of that text; the count returned is the number of
characters it took, and success is returned just if it took all of the text. Any behaviour of the file. -/
theorem to_cfile_exact (acc : World Nat) {its : List (Item (Writer Nat))} {ms : List Meaning}
    (h : AllMean τ (Writer.cfile acc) (fun s t => Writer.Rep s t) B its ms) (eol : Bool) (junk : List Nat)
    (hj : 64 ≤ junk.length) :
    ∃ s, printPlain (Writer.cfile acc) eol its (Writer.init junk) = some s ∧
      (Writer.finish acc s).1.file <+: lineText eol (total ms).text ∧
      (Writer.finish acc s).2.1 = (Writer.finish acc s).1.file.length ∧
      ((Writer.finish acc s).2.2 = true ↔ (Writer.finish acc s).1.file = lineText eol (total ms).text) := by
  obtain ⟨s, e, r, _⟩ := printPlain_prints (Writer.lawful acc) eol h _ [] (Writer.rep_init hj)
  have := Writer.finish_of_rep acc (by simpa using r : Writer.Rep s (lineText eol (total ms).text))
  exact ⟨s, e, this.1, this.2.1, this.2.2.1⟩

/-- C52: strf::to(streambuf)(args...): the count is the number of characters that the stream took, and success is
returned just if they are the whole text. (If not, they may have a gap, see Dest.streambuf_gap_wrong.) -/
theorem to_streambuf_exact (acc : World Nat) {its : List (Item (Writer Nat))} {ms : List Meaning}
    (h : AllMean τ (Writer.streambuf acc) (fun s t => Writer.RepSb s t) B its ms) (eol : Bool) (junk : List Nat)
    (hj : 64 ≤ junk.length) :
    ∃ s, printPlain (Writer.streambuf acc) eol its (Writer.init junk) = some s ∧
      (Writer.finishSb acc s).2.1 = (Writer.finishSb acc s).1.file.length ∧
      ((Writer.finishSb acc s).2.2 = true ↔ (Writer.finishSb acc s).1.file = lineText eol (total ms).text) := by
  obtain ⟨s, e, r, _⟩ := printPlain_prints (Writer.lawfulSb acc) eol h _ [] (Writer.repSb_init hj)
  obtain ⟨h1, h2, h3⟩ := Writer.finishSb_of_rep acc (by simpa using r : Writer.RepSb s (lineText eol (total ms).text))
  refine ⟨s, e, h1, h2, ?_⟩
  intro hf
  cases hb : (Writer.finishSb acc s).2.2 with
  | true => rfl
  | false => have := h3 hb; rw [hf] at this; omega

/-- C54 (part): strf::to(char_array)(args...) and .line(args...) for an array of N ≥ 1 elements, from printing to `finish()`:
nothing outside of the array is written; the array holds a prefix of the text; a text that leaves more than 64 elements of
the array free is not truncated; if the result is not truncated then the whole text is there, terminated, and the pointer
returned addresses the terminator; if it is truncated, the prefix kept fills all but at most 63 of the N - 1 elements.
Missing: that `finish()` terminates the array in all truncated cases, which is false of the code
(Dest.cstr_late_write_wrong): here, it has undefined behaviour in no other case than the one shown there. -/
theorem to_cstr_exact_partial (arr garb : List Nat) (hN : 1 ≤ arr.length) (hg : garb.length = 64)
    {its : List (Item (Arr Nat))} {ms : List Meaning}
    (h : AllMean τ Arr.dest (fun s t => Arr.Rep arr.length (arr.length - 1) s t) B its ms) (eol : Bool) :
    ∃ s, printPlain Arr.dest eol its (Arr.initCstr arr garb) = some s ∧ s.arr.length = arr.length ∧
      ((lineText eol (total ms).text).length + 64 < arr.length → s.good = true) ∧
      (s.good = true → ∃ s', Arr.finishCstr 0 s = some (s', .user (lineText eol (total ms).text).length, false) ∧
        s'.arr.take ((lineText eol (total ms).text).length + 1) = lineText eol (total ms).text ++ [0]) ∧
      (s.good = false → ∃ k, k ≤ (lineText eol (total ms).text).length ∧ k < arr.length ∧ arr.length ≤ k + 64 ∧
        s.arr.take k = (lineText eol (total ms).text).take k ∧
        (s.it ≠ .garbage 64 → ∃ s', Arr.finishCstr 0 s = some (s', .user k, true) ∧ s'.arr.length = arr.length ∧
          s'.arr.take (k + 1) = (lineText eol (total ms).text).take k ++ [0])) := by
  obtain ⟨s, e, r, _⟩ := printPlain_prints (Arr.lawful _ _) eol h _ [] (Arr.rep_initCstr arr garb hg)
  simp only [List.nil_append] at r
  obtain ⟨f1, f2, f3, f4, f5⟩ := Arr.finishCstr_of_rep 0 r (by omega)
  have hl : s.arr.length = arr.length := by
    rcases r with r | r
    · exact r.2.2.2.2.2.1
    · exact r.2.2.2.2.1
  refine ⟨s, e, hl, f4, ?_, ?_⟩
  · intro hgood
    have hs := f2.1 (.inl hgood)
    obtain ⟨⟨s', p, tr⟩, es⟩ := Option.isSome_iff_exists.mp hs
    obtain ⟨_, k, hp, _, _, ht, hk, htr⟩ := f5 s' p tr es
    have htr' : tr = false := by rw [htr, hgood]; rfl
    have := hk htr'
    subst this
    refine ⟨s', by rw [es, hp, htr'], ?_⟩
    rw [ht]; simp
  · intro hbad
    rcases r with r | ⟨h1, ⟨g, hg', h2⟩, h3, h4, h5, h6, k, c1, c2, c3, c4, c5⟩
    · rw [r.1] at hbad; cases hbad
    · refine ⟨k, c3, by omega, by omega, c4, ?_⟩
      intro hit
      have hs := f2.1 (.inr hit)
      obtain ⟨⟨s', p, tr⟩, es⟩ := Option.isSome_iff_exists.mp hs
      obtain ⟨hl', k', hp, _, _, ht, hk, htr⟩ := f5 s' p tr es
      have hit' : s.it = .user k := by rcases c5 with c5 | c5; · exact c5
                                       · exact absurd c5 hit
      have : s'.it = s.it := by
        unfold Arr.finishCstr at es
        rw [h1] at es
        simp only [Bool.false_eq_true, if_false, hit', Arr.assign, Option.map_map] at es
        cases hst : Dest.storeAt s.arr k [0] with
        | none => rw [hst] at es; simp at es
        | some a => rw [hst] at es; simp at es; rw [← es.1, hit']
      have hpk : p = .user k := by
        unfold Arr.finishCstr at es
        rw [h1] at es
        simp only [Bool.false_eq_true, if_false, hit', Arr.assign, Option.map_map] at es
        cases hst : Dest.storeAt s.arr k [0] with
        | none => rw [hst] at es; simp at es
        | some a => rw [hst] at es; simp at es; exact es.2.1.symm
      rw [hpk] at hp
      cases hp
      have htr' : tr = true := by rw [htr, h1]; rfl
      exact ⟨s', by rw [es, hpk, htr'], hl', ht⟩

/-- C54 is false of the code in the remaining case: printing strf::right(s, 75) with a string of 70 characters to a char[4]
leaves it without terminator, and stores a zero one past the garbage buffer (the fill characters already truncate; the
string is written nevertheless). -/
theorem to_cstr_terminated_wrong : ∃ s,
    printPlain Arr.dest false [alignedString (utf Arr.dest .utf8) (Calc.fast.on false (.utf .utf8)) (Content.copy Arr.dest)
      ⟨0x20, .right, 75 * 65536⟩ (List.replicate 70 0x61)] (Arr.initCstr [1, 1, 1, 1] (List.replicate 64 0)) = some s ∧
    s.arr = [0x20, 0x20, 0x20, 1] ∧ Arr.finishCstr 0 s = none := by
  have h : ((printPlain Arr.dest false [alignedString (utf Arr.dest .utf8) (Calc.fast.on false (.utf .utf8)) (Content.copy Arr.dest)
      ⟨0x20, .right, 75 * 65536⟩ (List.replicate 70 0x61)] (Arr.initCstr [1, 1, 1, 1] (List.replicate 64 0))).map
        fun s => (s.arr, (Arr.finishCstr 0 s).isNone)) = some ([0x20, 0x20, 0x20, 1], true) := by decide +kernel
  obtain ⟨s, e, h⟩ := Option.map_eq_some_iff.mp h
  rw [Prod.mk.injEq] at h
  exact ⟨s, e, h.1, Option.isNone_iff_eq_none.mp h.2⟩

/-- C54 (part): strf::to_range(begin, end)(args...): the same without terminator; the end that is returned is the end of the
prefix kept, except in the situation of Dest.array_late_write_wrong. -/
theorem to_range_exact_partial (arr garb : List Nat) (hg : garb.length = 64)
    {its : List (Item (Arr Nat))} {ms : List Meaning}
    (h : AllMean τ Arr.dest (fun s t => Arr.Rep arr.length arr.length s t) B its ms) (eol : Bool) :
    ∃ s, printPlain Arr.dest eol its (Arr.initArray arr garb) = some s ∧ s.arr.length = arr.length ∧
      ((lineText eol (total ms).text).length + 64 ≤ arr.length → (Arr.finishArray s).2 = false) ∧
      ∃ k, k ≤ (lineText eol (total ms).text).length ∧ k ≤ arr.length ∧
        s.arr.take k = (lineText eol (total ms).text).take k ∧
        ((Arr.finishArray s).2 = false → k = (lineText eol (total ms).text).length) ∧
        ((Arr.finishArray s).2 = true → arr.length < k + 64) ∧
        ((Arr.finishArray s).1 = .user k ∨ (Arr.finishArray s).2 = true ∧ (Arr.finishArray s).1 = .garbage 64) := by
  obtain ⟨s, e, r, _⟩ := printPlain_prints (Arr.lawful _ _) eol h _ [] (Arr.rep_initArray arr garb hg)
  simp only [List.nil_append] at r
  exact ⟨s, e, Arr.finishArray_of_rep r rfl⟩

/-- C54: strf::discarder takes any arguments without undefined behaviour. -/
theorem to_discarder_exact (garb : List Nat) (hg : garb.length = 64) {its : List (Item (Discarder Nat))} {ms : List Meaning}
    (h : AllMean τ Discarder.dest (fun s _ => s.garb.length = 64 ∧ s.ptr ≤ 64) B its ms) (eol : Bool) :
    (printPlain Discarder.dest eol its (Discarder.init garb)).isSome = true := by
  obtain ⟨s, e, _⟩ := printPlain_prints Discarder.lawful eol h (Discarder.init garb) [] ⟨hg, by simp [Discarder.init]⟩
  rw [e]; rfl

/-! ## tr -/

/-- as print_tr_exact, with what it says of the room -/
theorem print_tr_after (L : Lawful D Rep) (cs : Cs) {its : List (Item σ)} {ms : List Meaning} (h : AllMean τ D Rep B its ms)
    (str : List Nat) (segs : List Seg) (hs : Reads 0 str segs) (eol : Bool) (s : σ) (t : List Nat) (hr : Rep s t) :
    (∃ s', printTr D (cs.repl D) eol str its s = some (s', missing ms.length 0 segs) ∧
      Rep s' (t ++ lineText eol (expand (ms.map (·.text)) cs.replacement 0 segs)) ∧
      Dest.After τ D s s' (lineText eol (expand (ms.map (·.text)) cs.replacement 0 segs)).length) ∧
    ∀ create : Nat → σ, create (lineText eol (expand (ms.map (·.text)) cs.replacement 0 segs)).length = s →
    ∃ s', printTrCalc D (cs.repl D) eol str its create = some (s', missing ms.length 0 segs) ∧
      Rep s' (t ++ lineText eol (expand (ms.map (·.text)) cs.replacement 0 segs)) ∧
      Dest.After τ D s s' (lineText eol (expand (ms.map (·.text)) cs.replacement 0 segs)).length := by
  have key : ∀ {args}, ArgsPrint τ D Rep args (ms.map (·.text)) →
      ∃ s', ((trStringWrite D (cs.repl D) args str (s, [])).bind fun r => (endLine D eol r.1).map fun s => (s, r.2)) =
        some (s', missing ms.length 0 segs) ∧
      Rep s' (t ++ lineText eol (expand (ms.map (·.text)) cs.replacement 0 segs)) ∧
      Dest.After τ D s s' (lineText eol (expand (ms.map (·.text)) cs.replacement 0 segs)).length := by
    intro args ha
    obtain ⟨s1, e1, r1, a1⟩ := tr_write_after L cs ha str segs hs s t hr
    obtain ⟨s2, e2, r2, a2⟩ := endLine_prints (τ := τ) L eol s1 _ r1
    rw [e1]
    simp only [Option.bind_some, e2, Option.map_some, List.length_map]
    exact ⟨s2, rfl, by unfold lineText; rw [← List.append_assoc]; exact r2, a1.trans a2 (by unfold lineText; simp)⟩
  refine ⟨key (printItems (fun k => k.prints) h), ?_⟩
  intro create hc
  -- the premeasurements
  have make : ∃ rs, makeEach ⟨some 0, none⟩ its = some rs ∧ ArgsPrint τ D Rep (rs.map fun r => r.2) (ms.map (·.text)) ∧
      (rs.map fun r => r.1.accSize) = (ms.map (·.text)).map List.length := by
    clear key hc
    induction h with
    | nil => exact ⟨[], rfl, ⟨rfl, fun i h => by simp at h⟩, rfl⟩
    | @cons it its m ms h1 hs ih =>
      obtain ⟨q, pr, e1, p1, g1, g2, _⟩ := h1.2.2.2 ⟨some 0, none⟩ (by intro a ha; cases ha)
      obtain ⟨rs, e2, a2, s2⟩ := ih
      refine ⟨(q, pr) :: rs, ?_, ⟨by simpa using a2.len, ?_⟩, ?_⟩
      · unfold makeEach; rw [e1]; simp only [Option.bind_some, e2, Option.map_some]
      · intro i hi d
        cases i with
        | zero => simpa using p1
        | succ i =>
          have := a2.prints i (by simpa using hi) d
          simpa using this
      · simp only [List.map_cons, s2]
        congr 1
        unfold Pre.accSize
        rw [g1]; simp
  obtain ⟨rs, e1, a1, s1⟩ := make
  have hsz := tr_size_exact (D := D) cs (ms.map (·.text)) str segs hs
  unfold printTrCalc
  rw [e1]
  simp only [Option.bind_some]
  rw [s1, hsz]
  simp only [Option.bind_some]
  have hl : (expand (ms.map (·.text)) cs.replacement 0 segs).length + eol.toNat =
      (lineText eol (expand (ms.map (·.text)) cs.replacement 0 segs)).length := by
    unfold lineText; cases eol <;> simp
  rw [hl, hc]
  exact key a1

/-- C53: `.tr(str, args...)` and `.trline(str, args...)` give the destination the text that the syntax calls for (and the
end of line), and report the references to arguments that do not exist; on every destination that keeps the contract. With
reserve_calc the destination is created with exactly the size of that text. -/
theorem print_tr_exact (L : Lawful D Rep) (cs : Cs) {its : List (Item σ)} {ms : List Meaning} (h : AllMean τ D Rep B its ms)
    (str : List Nat) (segs : List Seg) (hs : Reads 0 str segs) (eol : Bool) (s : σ) (t : List Nat) (hr : Rep s t) :
    (∃ s', printTr D (cs.repl D) eol str its s = some (s', missing ms.length 0 segs) ∧
      Rep s' (t ++ lineText eol (expand (ms.map (·.text)) cs.replacement 0 segs))) ∧
    ∀ create : Nat → σ, create (lineText eol (expand (ms.map (·.text)) cs.replacement 0 segs)).length = s →
    ∃ s', printTrCalc D (cs.repl D) eol str its create = some (s', missing ms.length 0 segs) ∧
      Rep s' (t ++ lineText eol (expand (ms.map (·.text)) cs.replacement 0 segs)) := by
  obtain ⟨⟨s', e, r, _⟩, h2⟩ := print_tr_after L cs h str segs hs eol s t hr
  refine ⟨⟨s', e, r⟩, fun create hc => ?_⟩
  obtain ⟨s', e, r, _⟩ := h2 create hc
  exact ⟨s', e, r⟩

/-- C53 for strf::append(str).reserve_calc().tr(...), and strf::to_string.tr(...). -/
theorem append_tr_exact (cs : Cs) {start : List Nat} {its : List (Item (Appender Nat))} {ms : List Meaning}
    (h : AllMean τ Appender.dest (fun s t => Appender.Rep start s t) B its ms) (str : List Nat) (segs : List Seg)
    (hs : Reads 0 str segs) (eol : Bool) (junk : List Nat) (hj : junk.length = 64) :
    ∃ s errs, printTrCalc Appender.dest (cs.repl Appender.dest) eol str its (fun _ => Appender.init start junk) = some (s, errs) ∧
      printTr Appender.dest (cs.repl Appender.dest) eol str its (Appender.init start junk) ≠ none ∧
      errs = missing ms.length 0 segs ∧ (Appender.destroyE true (Appender.finishE true s).1).str =
        start ++ lineText eol (expand (ms.map (·.text)) cs.replacement 0 segs) := by
  obtain ⟨⟨s1, e1, _⟩, k⟩ := print_tr_exact (Appender.lawful start) cs h str segs hs eol _ [] (Appender.rep_init start hj)
  obtain ⟨s, e, r⟩ := k (fun _ => Appender.init start junk) rfl
  exact ⟨s, _, e, by rw [e1]; simp, rfl, Appender.finish_of_rep (by simpa using r)⟩

/-- C53 -/
theorem to_string_tr_exact (cs : Cs) {its : List (Item (Maker Nat))} {ms : List Meaning}
    (h : AllMean τ Maker.dest (fun s t => Maker.Rep s t) B its ms) (str : List Nat) (segs : List Seg)
    (hs : Reads 0 str segs) (eol : Bool) (junk : List Nat) (hj : junk.length = 64) :
    ∃ s, printTr Maker.dest (cs.repl Maker.dest) eol str its (Maker.init junk) = some (s, missing ms.length 0 segs) ∧
      (Maker.finishE true s).2 = some (lineText eol (expand (ms.map (·.text)) cs.replacement 0 segs)) := by
  obtain ⟨⟨s, e, r⟩, _⟩ := print_tr_exact Maker.lawful cs h str segs hs eol _ [] (Maker.rep_init hj)
  exact ⟨s, e, Maker.finish_of_rep (by simpa using r)⟩

/-! ## Examples -/

/-- to_string.reserve_calc().line(123, true), the second argument being measured first -/
example : (printCalc (Sized.dest 0) true [intItem (Sized.dest 0) ⟨true, 4, 123⟩, boolItem (Sized.dest 0) .lower true] [1, 0]
    (Sized.init 0)).map (fun s => (s.str.length, Sized.finish s)) = some (8, txt "123true\n") := by decide +kernel

/-- the theorems apply to it -/
example : ∃ ms, AllMean true (Sized.dest 0) (fun s t => Sized.Rep s t) wmax
      [intItem (Sized.dest 0) ⟨true, 4, 123⟩, boolItem (Sized.dest 0) .lower true] ms ∧
    lineText true (total ms).text = txt "123true\n" ∧ [1, 0].Perm (List.range 2) := by
  refine ⟨_, .cons (intItem_means (Sized.lawful 0) _ (fun c => [c]) .lower ⟨true, 4, 123⟩ (by decide))
    (.cons (boolItem_means (Sized.lawful 0) _ .lower true) .nil), ?_, ?_⟩ <;> decide +kernel

example (arr : List Nat) : ∃ ms, AllMean true Arr.dest (fun s t => Arr.Rep arr.length (arr.length - 1) s t) wmax
      [intItem Arr.dest ⟨true, 4, 123⟩, boolItem Arr.dest .lower true] ms ∧
    lineText true (total ms).text = txt "123true\n" := by
  refine ⟨_, .cons (intItem_means (Arr.lawful _ _) _ (fun c => [c]) .lower ⟨true, 4, 123⟩ (by decide))
    (.cons (boolItem_means (Arr.lawful _ _) _ .lower true) .nil), ?_⟩
  decide +kernel

example : ((printPlain Arr.dest true [intItem Arr.dest ⟨true, 4, 123⟩, boolItem Arr.dest .lower true]
    (Arr.initCstr (List.replicate 6 1) (List.replicate 64 0))).bind (Arr.finishCstr 0)).map (fun r => (r.1.arr, r.2)) =
    some (txt "123" ++ [0, 1, 1], .user 3, true) := by decide +kernel

example : (printTrCalc Appender.dest ((Cs.utf .utf8).repl Appender.dest) true (txt "{1}+{0}{}{}{}")
    [intItem Appender.dest ⟨true, 4, 123⟩, boolItem Appender.dest .lower true]
    (fun _ => Appender.init (txt "a:") (List.replicate 64 0))).map (fun r => ((Appender.finishE true r.1).1.str, r.2)) =
    some (txt "a:true+123123true" ++ [0xEF, 0xBF, 0xBD, 0x0A], [11]) := by decide +kernel

end Strf.Print

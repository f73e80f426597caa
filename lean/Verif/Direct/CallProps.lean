import Verif.Direct.ArgProps
/-!
# C91: classes with `print`: whole calls
-/
namespace Strf.Direct
open Strf.Format
open Strf.Program (Tag Cat FacetArg Arg CharsetsAre constrainable allConstrainable theCharset)
open Strf.Print (Item Meaning AllMean total printPlain printCalc printTr lineText txt)
open Strf.Dest (Dest Lawful Prints Maker Sized Appender Writer World Arr)
open Strf.Tr (Reads Seg expand missing)
open Strf.IntPrinter (AlignFmt)
open Strf.Override

variable {ω υ π ρ : Type} {T : CharT} {sg : CharT → Bool} {cl : PClasses ω υ π ρ} {M : π → Int → Meaning → Prop} {W : ρ → List Nat → Prop} {B : Int}
  {c : UCall ω υ} {ts : List (List Nat)} {ms : List Meaning}

/-- The printers of the user's print what they should (as in C90), and so do the functions `print`: on every destination that keeps the contract (C09). -/
def ClassesOk (τ : Bool) (cl : PClasses ω υ π ρ) (M : π → Int → Meaning → Prop) (W : ρ → List Nat → Prop) : Prop :=
  PrintersOk τ cl.toClasses M ∧
  ∀ (σ : Type) (D : Dest Nat σ) (Rep : σ → List Nat → Prop), Lawful D Rep → ∀ r t, W r t → Prints τ D Rep (cl.own D r) t

theorem callPack_eq (c : UCall ω υ) : callPack c = c.pack := by
  unfold callPack UCall.pack Facets.callFacets
  rw [withAll_flatten]

/-- C91 (part): a call without premeasurements whose arguments say something compiles (with every sufficient depth of instantiations, to the same) and each argument
writes what it says, whether its class has `print` or `make_printer`. Missing is what is missing in C73. -/
theorem says_call_partial {σ : Type} {D : Dest Nat σ} {Rep : σ → List Nat → Prop} (L : Lawful D Rep) (H : ClassesOk τ cl M W) (h : CallSays T cl M W c ts) :
    ∃ n its, (∀ k, n ≤ k → callItems D T sg cl k (.nothing .direct) c = some its) ∧ AllWrite τ D Rep its ts := by
  obtain ⟨ht, K, hch, hd⟩ := h
  obtain ⟨n, its, e, hw⟩ := sayAll_exact (sg := sg) L (H.1 σ D Rep L) (H.2 σ D Rep L) hd ht hch
  refine ⟨n, its, fun k hk => ?_, hw⟩
  unfold callItems
  rw [callPack_eq]
  exact genEach_le hk e

theorem AllWrite.plain {σ : Type} {D : Dest Nat σ} {Rep : σ → List Nat → Prop} {its : List (Item σ)} (h : AllWrite τ D Rep its ts) (eol : Bool) :
    printPlain D eol (measurableAll its ts) = printPlain D eol its := by
  funext s
  unfold printPlain
  rw [printAll_congr h.prints_same]

theorem said_eq (c : UCall ω υ) (ts : List (List Nat)) : lineText c.eol (total (plainly ts)).text = said c ts := by
  unfold lineText said
  rw [plainly_total]

/-- C91: strf::to_string…(args...) returns the text. -/
theorem says_to_string_partial (H : ClassesOk τ cl M W) (h : CallSays T cl M W c ts) (junk : List Nat) (hj : junk.length = 64) :
    ∃ n its s, (∀ k, n ≤ k → callItems Maker.dest T sg cl k (.nothing .direct) c = some its) ∧
      printPlain Maker.dest c.eol its (Maker.init junk) = some s ∧ (Maker.finishE true s).2 = some (said c ts) := by
  obtain ⟨n, its, hi, hw⟩ := says_call_partial (sg := sg) Maker.lawful H h
  obtain ⟨s, e, r⟩ := Print.to_string_exact (hw.means 0) c.eol junk hj
  exact ⟨n, its, s, hi, by rw [← hw.plain]; exact e, by rw [r, said_eq]⟩

/-- C91: strf::to_string.reserve(n)…(args...) returns the text. -/
theorem says_to_string_reserve_partial (H : ClassesOk τ cl M W) (h : CallSays T cl M W c ts) :
    ∃ n its, (∀ k, n ≤ k → callItems (Sized.dest 0) T sg cl k (.nothing .direct) c = some its) ∧
      ∀ size, ∃ s, printPlain (Sized.dest 0) c.eol its (Sized.init 0 size) = some s ∧ Sized.finish s = said c ts := by
  obtain ⟨n, its, hi, hw⟩ := says_call_partial (sg := sg) (Sized.lawful 0) H h
  refine ⟨n, its, hi, fun size => ?_⟩
  obtain ⟨s, e, r⟩ := (Print.to_string_reserve_exact (hw.means 0) c.eol).1 size
  exact ⟨s, by rw [← hw.plain]; exact e, by rw [r, said_eq]⟩

/-- C91: strf::append(str)…(args...) -/
theorem says_append_partial (H : ClassesOk τ cl M W) (h : CallSays T cl M W c ts) (start junk : List Nat) (hj : junk.length = 64) :
    ∃ n its s, (∀ k, n ≤ k → callItems Appender.dest T sg cl k (.nothing .direct) c = some its) ∧
      printPlain Appender.dest c.eol its (Appender.init start junk) = some s ∧
      (Appender.destroyE true (Appender.finishE true s).1).str = start ++ said c ts := by
  obtain ⟨n, its, hi, hw⟩ := says_call_partial (sg := sg) (Appender.lawful start) H h
  obtain ⟨⟨s, e, r⟩, _⟩ := Print.append_exact (hw.means 0) c.eol junk hj
  exact ⟨n, its, s, hi, by rw [← hw.plain]; exact e, by rw [r, said_eq]⟩

/-- C91: strf::to(FILE*)…(args...) -/
theorem says_to_cfile_partial (H : ClassesOk τ cl M W) (h : CallSays T cl M W c ts) (acc : World Nat) (junk : List Nat) (hj : 64 ≤ junk.length) :
    ∃ n its s, (∀ k, n ≤ k → callItems (Writer.cfile acc) T sg cl k (.nothing .direct) c = some its) ∧
      printPlain (Writer.cfile acc) c.eol its (Writer.init junk) = some s ∧
      (Writer.finish acc s).1.file <+: said c ts ∧
      (Writer.finish acc s).2.1 = (Writer.finish acc s).1.file.length ∧
      ((Writer.finish acc s).2.2 = true ↔ (Writer.finish acc s).1.file = said c ts) := by
  obtain ⟨n, its, hi, hw⟩ := says_call_partial (sg := sg) (Writer.lawful acc) H h
  obtain ⟨s, e, r⟩ := Print.to_cfile_exact acc (hw.means 0) c.eol junk hj
  rw [said_eq] at r
  exact ⟨n, its, s, hi, by rw [← hw.plain]; exact e, r⟩

/-- C91: strf::to(char_array)…(args...) -/
theorem says_to_cstr_partial (H : ClassesOk τ cl M W) (h : CallSays T cl M W c ts) (arr garb : List Nat) (hN : 1 ≤ arr.length) (hg : garb.length = 64) :
    ∃ n its s, (∀ k, n ≤ k → callItems Arr.dest T sg cl k (.nothing .direct) c = some its) ∧ printPlain Arr.dest c.eol its (Arr.initCstr arr garb) = some s ∧
      s.arr.length = arr.length ∧ ((said c ts).length + 64 < arr.length → s.good = true) ∧
      (s.good = true → ∃ s', Arr.finishCstr 0 s = some (s', .user (said c ts).length, false) ∧
        s'.arr.take ((said c ts).length + 1) = said c ts ++ [0]) := by
  obtain ⟨n, its, hi, hw⟩ := says_call_partial (sg := sg) (Arr.lawful arr.length (arr.length - 1)) H h
  obtain ⟨s, e, r1, r2, r3, _⟩ := Print.to_cstr_exact_partial arr garb hN hg (hw.means 0) c.eol
  rw [said_eq] at r2 r3
  exact ⟨n, its, s, hi, by rw [← hw.plain]; exact e, r1, r2, r3⟩

/-! ### `tr` -/

/-- The text of `….tr(str, args...)`, nothing being premeasured. -/
inductive TrSays (T : CharT) (cl : PClasses ω υ π ρ) (M : π → Int → Meaning → Prop) (W : ρ → List Nat → Prop) (c : UCall ω υ) (str : List Nat) : List Seg → List Nat → Prop
  | intro {ts segs} (K : CharT → CharsetArg) : UAllTyped c.pack → CharsetsAre (stdAll c.pack) K → SayAll T cl M W .tr K c.pack c.args ts → Reads 0 str segs →
    TrSays T cl M W c str segs (lineText c.eol (expand ts (K T).name.cs.replacement 0 segs))

theorem SayAll.length {h : How} {K : CharT → CharsetArg} {fp : UPack ω} : ∀ {as : List (UArg ω υ)} {ts : List (List Nat)}, SayAll T cl M W h K fp as ts → ts.length = as.length := by
  intro as
  induction as with
  | nil => intro ts h; cases h; rfl
  | cons a as ih => intro ts h; cases h with | cons _ h => simp [ih h]

/-- C91 (part): `tr` and `trline` print the tr-string with its directives replaced, on every destination that keeps the contract, and give the error notifier the positions of
the directives that refer to arguments that do not exist. -/
theorem says_tr_partial {σ : Type} {D : Dest Nat σ} {Rep : σ → List Nat → Prop} (L : Lawful D Rep) (H : ClassesOk τ cl M W) {str text : List Nat} {segs : List Seg}
    (h : TrSays T cl M W c str segs text) (s : σ) (t : List Nat) (hs : Rep s t) :
    ∃ n its s', (∀ k, n ≤ k → callItems D T sg cl k (.nothing .tr) c = some its) ∧
      printTr D ((theCharset (stdAll (callPack c)) .void T).name.cs.repl D) c.eol str its s = some (s', missing c.args.length 0 segs) ∧ Rep s' (t ++ text) := by
  obtain ⟨K, ht, hch, hd, hr⟩ := h
  obtain ⟨n, its, e, hw⟩ := sayAll_exact (sg := sg) L (H.1 σ D Rep L) (H.2 σ D Rep L) hd ht hch
  obtain ⟨⟨s', e', r⟩, _⟩ := Print.print_tr_exact L (K T).name.cs (hw.means 0) str segs hr c.eol s t hs
  refine ⟨n, its, s', fun k hk => ?_, ?_, ?_⟩
  · unfold callItems
    rw [callPack_eq]
    exact genEach_le hk e
  · rw [callPack_eq, hch.fn]
    rw [show ∀ ts, (plainly ts).length = ts.length from fun ts => by simp [plainly], hd.length] at e'
    rw [← e']
    unfold printTr
    rw [hw.prints_same]
  · rw [plainly_text] at r; exact r

/-- C91: to_string.tr(str, args...) and trline -/
theorem says_tr_to_string_partial (H : ClassesOk τ cl M W) {str text : List Nat} {segs : List Seg} (h : TrSays T cl M W c str segs text) (junk : List Nat) (hj : junk.length = 64) :
    ∃ n its s, (∀ k, n ≤ k → callItems Maker.dest T sg cl k (.nothing .tr) c = some its) ∧
      printTr Maker.dest ((theCharset (stdAll (callPack c)) .void T).name.cs.repl Maker.dest) c.eol str its (Maker.init junk) = some (s, missing c.args.length 0 segs) ∧
      (Maker.finishE true s).2 = some text := by
  obtain ⟨n, its, s, hi, e, r⟩ := says_tr_partial (sg := sg) Maker.lawful H h _ [] (Maker.rep_init hj)
  exact ⟨n, its, s, hi, e, Maker.finish_of_rep (by simpa using r)⟩

/-! ### reserve_calc -/

/-- C91 (part): where the arguments are measured, as C90. -/
theorem means_call_partial {σ : Type} {D : Dest Nat σ} {Rep : σ → List Nat → Prop} (L : Lawful D Rep) (H : ClassesOk τ cl M W) (h : CallMeans T cl M W B c ms) :
    ∃ n its, (∀ k, n ≤ k → callItems D T sg cl k .something c = some its) ∧ AllMean τ D Rep B its ms := by
  obtain ⟨ht, K, hch, hd⟩ := h
  obtain ⟨n, its, e, hm⟩ := meanAll_exact (sg := sg) L (H.1 σ D Rep L) (H.2 σ D Rep L) hd ht hch
  refine ⟨n, its, fun k hk => ?_, hm⟩
  unfold callItems
  rw [callPack_eq]
  exact genEach_le hk e

/-- C91: to_string.reserve_calc() creates the string with the size of the text, and returns the text. -/
theorem means_to_string_calc_partial (H : ClassesOk τ cl M W) (h : CallMeans T cl M W B c ms) (order : List Nat) (ho : order.Perm (List.range ms.length)) :
    ∃ n its s, (∀ k, n ≤ k → callItems (Sized.dest 0) T sg cl k .something c = some its) ∧
      Sized.finish s = c.text ms ∧ ∀ create : Nat → Sized Nat, create (c.text ms).length = Sized.init 0 (c.text ms).length →
        printCalc (Sized.dest 0) c.eol its order create = some s := by
  obtain ⟨n, its, hi, hm⟩ := means_call_partial (sg := sg) (Sized.lawful 0) H h
  obtain ⟨s, _, e2, e3⟩ := (Print.to_string_reserve_exact hm c.eol).2 order (by rw [hm.length]; exact ho)
  exact ⟨n, its, s, hi, e2, e3⟩

/-! ### classes without `print` -/

/-- The classes have no functions `print`. -/
def NoPrint (cl : PClasses ω υ π ρ) : Prop :=
  (∀ u T fp, cl.printDef u T fp = none) ∧ (∀ o T fp l, cl.printOver o T fp l = none) ∧ ∀ o T fp u, cl.printOverUser o T fp u = none

theorem total_flatten (ms : List Meaning) : (total ms).text = (ms.map (·.text)).flatten := by
  induction ms with
  | nil => rfl
  | cons m ms ih => simp [total, ih]

theorem How.calls_make (h : How) : h.Calls true false false := by cases h <;> constructor

mutual
/-- C91: Without functions `print` arguments say, in every place where nothing is premeasured, the text that they mean (C90), -/
theorem denotes_says (hn : NoPrint cl) : {K : CharT → CharsetArg} → {fp : UPack ω} → {B : Int} → {a : UArg ω υ} → {m : Meaning} → UDenotes T cl.toClasses M K fp B a m →
    ∀ h, Says T cl M W h K fp a m.text
  | _, _, _, _, _, .leaf h1 h2, h => .leaf _ h1 h2
  | _, _, _, _, _, @UDenotes.overridden _ _ _ _ _ _ _ _ _ _ _ b o h1 h2 h3 h4, h => .overridden o h1 h2 (by
      rw [show cl.override o T _ _ = some b from h3, hn.2.1]; exact body_says hn h4 h)
  | _, _, _, _, _, @UDenotes.user _ _ _ _ _ _ _ _ _ _ _ b h1 h3 h4, h => .user h1 (by
      rw [show cl.define _ T _ = some b from h3, hn.1]; exact body_says hn h4 h)
  | _, _, _, _, _, @UDenotes.userOverridden _ _ _ _ _ _ _ _ _ _ _ b o h1 h2 h3 h4, h => .userOverridden o h1 h2 (by
      rw [show cl.overrideUser o T _ _ = some b from h3, hn.2.2]; exact body_says hn h4 h)
  | _, _, _, _, _, @UDenotes.join _ _ _ _ _ _ _ _ _ _ ms hs, h => by
    rw [total_flatten]; exact .join (denoteAll_says hn hs .direct)
  | _, _, _, _, _, @UDenotes.range _ _ _ _ _ _ _ _ _ _ ms hs, h => by
    rw [total_flatten]; exact .range (denoteAll_says hn hs .direct)
  | _, _, _, _, _, .separatedRange wc h1 h2 h3 h4 hs, h => .separatedRange (denoteAll_says hn hs .direct)
  | K, fp, B, _, _, @UDenotes.alignedJoin _ _ _ _ _ _ _ _ _ args a ms n h1 h2 hs h3 h4 h5 h6, h => by
    refine .alignedJoin n _ h1 h2 (Int.le_max_right B a.width) (denoteAll_means hn hs) ?_ h4 (by omega)
    omega
  | _, _, _, _, _, .tr wc h1 h2 h3 hs h4, h => .tr h2 (denoteAll_says hn hs .printer)
  | _, _, _, _, _, @UDenotes.inner _ _ _ _ _ _ _ _ _ _ _ ms h1 h2 hs, h => by
    rw [total_flatten]; exact .inner h1 h2 (denoteAll_says hn hs .printer)
theorem body_says (hn : NoPrint cl) : {B : Int} → {b : Body ω υ π} → {m : Meaning} → BodyDenotes T cl.toClasses M B b m →
    ∀ h, ClassSays T cl M W h (some b) none m.text
  | _, _, _, .arg ht hch hd, h => .makeArg h.calls_make ht hch (denotes_says hn hd .printer)
  | B, _, _, .printer hm, h => .makePrinter B h.calls_make hm
theorem denoteAll_says (hn : NoPrint cl) : {K : CharT → CharsetArg} → {fp : UPack ω} → {B : Int} → {as : List (UArg ω υ)} → {ms : List Meaning} →
    UDenoteAll T cl.toClasses M K fp B as ms → ∀ h, SayAll T cl M W h K fp as (ms.map (·.text))
  | _, _, _, _, _, .nil, _ => .nil
  | _, _, _, _, _, .cons h hs, k => .cons (denotes_says hn h k) (denoteAll_says hn hs k)
/-- C91: and where they are measured, what they mean. -/
theorem denotes_means (hn : NoPrint cl) : {K : CharT → CharsetArg} → {fp : UPack ω} → {B : Int} → {a : UArg ω υ} → {m : Meaning} → UDenotes T cl.toClasses M K fp B a m →
    Means T cl M W K fp B a m
  | _, _, _, _, _, .leaf h1 h2 => .leaf h1 h2
  | _, _, _, _, _, .overridden o h1 h2 h3 h4 => .overridden o h1 h2 h3 (bodyDenotes_means hn h4)
  | _, _, _, _, _, .user h1 h3 h4 => .user h1 h3 (bodyDenotes_means hn h4)
  | _, _, _, _, _, .userOverridden o h1 h2 h3 h4 => .userOverridden o h1 h2 h3 (bodyDenotes_means hn h4)
  | _, _, _, _, _, .join hs => .join (denoteAll_means hn hs)
  | _, _, _, _, _, .range hs => .range (denoteAll_means hn hs) (denoteAll_says hn hs .direct)
  | _, _, _, _, _, .separatedRange wc h1 h2 h3 h4 hs => .separatedRange wc h1 h2 h3 h4 (denoteAll_means hn hs) (denoteAll_says hn hs .direct)
  | _, _, _, _, _, .alignedJoin n h1 h2 hs h3 h4 h5 h6 => .alignedJoin n h1 h2 (denoteAll_means hn hs) h3 h4 h5 h6
  | _, _, _, _, _, .tr wc h1 h2 h3 hs h4 => .tr wc h1 h2 h3 (denoteAll_means hn hs) h4
  | _, _, _, _, _, .inner h1 h2 hs => .inner h1 h2 (denoteAll_means hn hs)
theorem bodyDenotes_means (hn : NoPrint cl) : {B : Int} → {b : Body ω υ π} → {m : Meaning} → BodyDenotes T cl.toClasses M B b m → BodyMeans T cl M W B b m
  | _, _, _, .arg ht hch hd => .arg ht hch (denotes_means hn hd)
  | _, _, _, .printer hm => .printer hm
theorem denoteAll_means (hn : NoPrint cl) : {K : CharT → CharsetArg} → {fp : UPack ω} → {B : Int} → {as : List (UArg ω υ)} → {ms : List Meaning} →
    UDenoteAll T cl.toClasses M K fp B as ms → MeanAll T cl M W K fp B as ms
  | _, _, _, _, _, .nil => .nil
  | _, _, _, _, _, .cons h hs => .cons (denotes_means hn h) (denoteAll_means hn hs)
end

end Strf.Direct

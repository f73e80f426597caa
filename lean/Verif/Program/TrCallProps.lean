import Verif.Program.CallProps
import Verif.Print.Props
/-!
# C78, C79: whole calls of `tr` and `trline`, and `strf::measure`
-/
namespace Strf.Program
open Strf.Format
open Strf.Print (Item Meaning AllMean Acc Pre total printPlain printTr printTrCalc lineText measureWidth measureSize)
open Strf.Dest (Dest Lawful Maker Sized Appender Writer World Arr)
open Strf.Tr (Reads Seg expand missing)
open Strf.Facets (writtenAll)
open Strf.Width (wmax)

variable {σ : Type} {D : Dest Nat σ} {Rep : σ → List Nat → Prop} {T : CharT} {sg : CharT → Bool} {B : Int} {ms : List Meaning}

/-! ## tr -/

/-- `destination.with(withs[0]...)….tr(facets..., str, args...)`, and `.trline` if `c.eol`: as Call, with the tr-string -/
structure TrCall extends Call where
  str : List Nat

/-- the charset with which the tr-string's replacement characters are written: get_facet<charset_c<CharT>, void>,
reserve_policies.hpp 270–271, 352–353 -/
def TrCall.charset (c : TrCall) (T : CharT) : CsName :=
  (theCharset (Facets.callFacets (Facets.withAll [] c.withs) c.facets) .void T).name

/-- printing_syntax.hpp 560–700, separate_args_and_print.hpp 97–170, 207–226, reserve_policies.hpp 229–292: `tr` with no_reserve
and reserve_given_space, when the destination created is in the state `s`. The result: the state before finish(), and the positions
of the tr-string given to the tr_error_notifier. -/
def TrCall.print (D : Dest Nat σ) (T : CharT) (sg : CharT → Bool) (c : TrCall) (s : σ) : Option (σ × List Nat) :=
  (c.items D T sg).bind fun its => printTr D ((c.charset T).cs.repl D) c.eol c.str its s

/-- the same with reserve_calc, reserve_policies.hpp 297–374 -/
def TrCall.printCalc (D : Dest Nat σ) (T : CharT) (sg : CharT → Bool) (c : TrCall) (create : Nat → σ) : Option (σ × List Nat) :=
  (c.items D T sg).bind fun its => printTrCalc D ((c.charset T).cs.repl D) c.eol c.str its create

/-- The text that is to be printed: the tr-string with its directives replaced by the texts of the arguments, or by the replacement
character of the charset in force. `segs`: what the tr-string consists of. -/
inductive TrCall.Text (T : CharT) (B : Int) (c : TrCall) (segs : List Seg) (ms : List Meaning) : List Nat → Prop
  | intro (K : CharT → CharsetArg) : AllTyped c.pack → CharsetsAre c.pack K → DenoteAll T K c.pack B c.args ms → Reads 0 c.str segs →
    Text T B c segs ms (lineText c.eol (expand (ms.map (·.text)) (K T).name.cs.replacement 0 segs))

/-- as tr_call_exact_partial, with what it says of the room -/
theorem tr_call_after {c : TrCall} {segs : List Seg} {text : List Nat} (L : Lawful D Rep) (h : c.Text T B segs ms text)
    (s : σ) (t : List Nat) (hs : Rep s t) :
    (∃ s', c.print D T sg s = some (s', missing c.args.length 0 segs) ∧ Rep s' (t ++ text) ∧ Dest.After true D s s' text.length) ∧
    ∀ create : Nat → σ, create text.length = s →
      ∃ s', c.printCalc D T sg create = some (s', missing c.args.length 0 segs) ∧ Rep s' (t ++ text) ∧ Dest.After true D s s' text.length := by
  obtain ⟨K, ht, hch, hd, hr⟩ := h
  obtain ⟨its, hi, hm⟩ := call_exact_partial (τ := true) (sg := sg) L (c := c.toCall) ⟨ht, K, hch, hd⟩
  have hK : c.charset T = (K T).name := by
    unfold TrCall.charset; rw [(hch.congr (call_pack c.toCall)).fn]
  have hlen : ms.length = c.args.length := by
    have : ∀ {fp B l ms}, DenoteAll T K fp B l ms → ms.length = l.length := by
      intro fp B l
      induction l with
      | nil => intro ms h; cases h; rfl
      | cons a l ih => intro ms h; cases h with | cons _ h => simp [ih h]
    exact this hd
  obtain ⟨h1, h2⟩ := Print.print_tr_after (τ := true) L (K T).name.cs hm c.str segs hr c.eol s t hs
  rw [hlen] at h1 h2
  unfold TrCall.print TrCall.printCalc
  rw [hi, hK]
  exact ⟨h1, h2⟩

/-- C78 (part): on any destination that keeps the contract `tr` prints the text, and gives the error notifier the positions of the
directives that refer to arguments that do not exist; also with reserve_calc, which creates the destination with exactly the size of
the text. Missing: as in call_exact_partial, what is false of the printers of the arguments. -/
theorem tr_call_exact_partial {c : TrCall} {segs : List Seg} {text : List Nat} (L : Lawful D Rep) (h : c.Text T B segs ms text)
    (s : σ) (t : List Nat) (hs : Rep s t) :
    (∃ s', c.print D T sg s = some (s', missing c.args.length 0 segs) ∧ Rep s' (t ++ text)) ∧
    ∀ create : Nat → σ, create text.length = s →
      ∃ s', c.printCalc D T sg create = some (s', missing c.args.length 0 segs) ∧ Rep s' (t ++ text) := by
  obtain ⟨⟨s', e, r, _⟩, h2⟩ := tr_call_after (sg := sg) L h s t hs
  refine ⟨⟨s', e, r⟩, fun create hc => ?_⟩
  obtain ⟨s', e, r, _⟩ := h2 create hc
  exact ⟨s', e, r⟩

/-- C78: to_string.tr(str, args...) and trline -/
theorem tr_call_to_string_partial {c : TrCall} {segs : List Seg} {text : List Nat} (h : c.Text T B segs ms text)
    (junk : List Nat) (hj : junk.length = 64) :
    ∃ s, c.print Maker.dest T sg (Maker.init junk) = some (s, missing c.args.length 0 segs) ∧ (Maker.finishE true s).2 = some text := by
  obtain ⟨⟨s, e, r⟩, _⟩ := tr_call_exact_partial (sg := sg) Maker.lawful h _ [] (Maker.rep_init hj)
  exact ⟨s, e, Maker.finish_of_rep (by simpa using r)⟩

/-- C78: append(str).tr(str, args...), also with reserve_calc -/
theorem tr_call_append_partial {c : TrCall} {segs : List Seg} {text : List Nat} (h : c.Text T B segs ms text)
    (start junk : List Nat) (hj : junk.length = 64) :
    (∃ s, c.print Appender.dest T sg (Appender.init start junk) = some (s, missing c.args.length 0 segs) ∧
      (Appender.destroyE true (Appender.finishE true s).1).str = start ++ text) ∧
    ∃ s, c.printCalc Appender.dest T sg (fun _ => Appender.init start junk) = some (s, missing c.args.length 0 segs) ∧
      (Appender.destroyE true (Appender.finishE true s).1).str = start ++ text := by
  obtain ⟨⟨s, e, r⟩, k⟩ := tr_call_exact_partial (sg := sg) (Appender.lawful start) h _ [] (Appender.rep_init start hj)
  obtain ⟨s', e', r'⟩ := k (fun _ => Appender.init start junk) rfl
  exact ⟨⟨s, e, Appender.finish_of_rep (by simpa using r)⟩, s', e', Appender.finish_of_rep (by simpa using r')⟩

/-- C78: to(FILE*).tr(str, args...) -/
theorem tr_call_to_cfile_partial {c : TrCall} {segs : List Seg} {text : List Nat} (h : c.Text T B segs ms text) (acc : World Nat)
    (junk : List Nat) (hj : 64 ≤ junk.length) :
    ∃ s, c.print (Writer.cfile acc) T sg (Writer.init junk) = some (s, missing c.args.length 0 segs) ∧
      (Writer.finish acc s).1.file <+: text ∧ (Writer.finish acc s).2.1 = (Writer.finish acc s).1.file.length ∧
      ((Writer.finish acc s).2.2 = true ↔ (Writer.finish acc s).1.file = text) := by
  obtain ⟨⟨s, e, r⟩, _⟩ := tr_call_exact_partial (sg := sg) (Writer.lawful acc) h _ [] (Writer.rep_init hj)
  have := Writer.finish_of_rep acc (by simpa using r : Writer.Rep s text)
  exact ⟨s, e, this.1, this.2.1, this.2.2.1⟩

/-- C78: to(char_array).tr(str, args...): the result of finish() as in C54 -/
theorem tr_call_to_cstr_partial {c : TrCall} {segs : List Seg} {text : List Nat} (h : c.Text T B segs ms text) (arr garb : List Nat)
    (hN : 1 ≤ arr.length) (hg : garb.length = 64) :
    ∃ s, c.print Arr.dest T sg (Arr.initCstr arr garb) = some (s, missing c.args.length 0 segs) ∧ s.arr.length = arr.length ∧
      (text.length + 64 < arr.length → s.good = true) ∧
      (s.good = true → ∃ s', Arr.finishCstr 0 s = some (s', .user text.length, false) ∧
        s'.arr.take (text.length + 1) = text ++ [0]) ∧
      (s.good = false → s.it ≠ .garbage 64 → ∃ s' k, Arr.finishCstr 0 s = some (s', .user k, true) ∧ s'.arr.length = arr.length ∧
        s'.arr.take (k + 1) = text.take k ++ [0]) := by
  obtain ⟨⟨s, e, r⟩, _⟩ := tr_call_exact_partial (sg := sg) (Arr.lawful arr.length (arr.length - 1)) h _ [] (Arr.rep_initCstr arr garb hg)
  simp only [List.nil_append] at r
  obtain ⟨f1, f2, f3, f4, f5⟩ := Arr.finishCstr_of_rep 0 r (by omega)
  have hl : s.arr.length = arr.length := by
    rcases r with r | r
    · exact r.2.2.2.2.2.1
    · exact r.2.2.2.2.1
  have key : ∀ s' p tr, Arr.finishCstr 0 s = some (s', p, tr) → ∃ k, p = .user k ∧ s'.arr.length = arr.length ∧
      s'.arr.take (k + 1) = text.take k ++ [0] ∧ tr = !s.good ∧ (tr = false → k = text.length) := by
    intro s' p tr es
    obtain ⟨h1, k, hp, _, _, ht, hk, htr⟩ := f5 s' p tr es
    exact ⟨k, hp, h1, ht, htr, hk⟩
  refine ⟨s, e, hl, f4, ?_, ?_⟩
  · intro hgood
    obtain ⟨⟨s', p, tr⟩, es⟩ := Option.isSome_iff_exists.mp (f2.1 (.inl hgood))
    obtain ⟨k, hp, _, ht, htr, hk⟩ := key s' p tr es
    have htr' : tr = false := by rw [htr, hgood]; rfl
    have := hk htr'
    subst this
    refine ⟨s', by rw [es, hp, htr'], ?_⟩
    rw [ht]; simp
  · intro hbad hit
    obtain ⟨⟨s', p, tr⟩, es⟩ := Option.isSome_iff_exists.mp (f2.1 (.inr hit))
    obtain ⟨k, hp, h1, ht, htr, _⟩ := key s' p tr es
    have htr' : tr = true := by rw [htr, hbad]; rfl
    exact ⟨s', k, by rw [es, hp, htr'], h1, ht⟩

/-! ## measure -/

/-- strf::measure<T>(pre, pack(fp...), args...), measure.hpp 44–96: `pre` has been created with the width limit `limit`, if it measures
the width, and to measure the size, if `size`. Result: what is in `pre` then. If the size is demanded the compiler makes the printers in
any order: `args` is in that order. -/
def measured (D : Dest Nat σ) (T : CharT) (sg : CharT → Bool) (fp : Pack) (args : List Arg) (size : Bool) (limit : Option Int) : Option Pre :=
  (items D T sg fp args).bind fun its =>
    if size then measureSize its ⟨some 0, limit.map .init⟩
    else match limit with
      | some l => measureWidth its ⟨none, some (.init l)⟩
      | none => some ⟨none, none⟩

theorem DenoteAll.perm {K : CharT → CharsetArg} {fp : Pack} {args args' : List Arg} (hp : args.Perm args') :
    ∀ {ms}, DenoteAll T K fp B args ms → ∃ ms', ms.Perm ms' ∧ DenoteAll T K fp B args' ms' := by
  induction hp with
  | nil => intro ms h; cases h; exact ⟨[], .nil, .nil⟩
  | cons x _ ih =>
    intro ms h
    cases h with
    | cons h1 h =>
      obtain ⟨ms', p, h'⟩ := ih h
      exact ⟨_, p.cons _, .cons h1 h'⟩
  | swap x y l =>
    intro ms h
    cases h with
    | cons h1 h =>
      cases h with
      | cons h2 h => exact ⟨_, .swap _ _ _, .cons h2 (.cons h1 h)⟩
  | trans _ _ ih1 ih2 =>
    intro ms h
    obtain ⟨m1, p1, h1⟩ := ih1 h
    obtain ⟨m2, p2, h2⟩ := ih2 h1
    exact ⟨m2, p1.trans p2, h2⟩

/-- C79 (part): strf::measure with the size gives the number of code units of the text that the same facets and arguments print (C73), and
the sum of the widths of the arguments, but no more than the limit; whatever the order in which the compiler evaluates the arguments.
Missing: as in call_exact_partial; and the widths that overflow width_t (C37). -/
theorem measure_call_size_partial {fp : Pack} {args args' : List Arg} (hp : args.Perm args')
    (h : (Call.mk [] fp args false).Means T B ms) (limit : Option Int)
    (hlim : ∀ l, limit = some l → CInt.InI32 l ∧ l ≤ B ∧ ((total ms).room ≤ wmax ∨ max 0 l + (total ms).cost ≤ wmax)) :
    ∃ pre, measured Maker.dest T sg fp args' true limit = some pre ∧
      pre.size = some ((Call.mk [] fp args false).text ms).length ∧
      ∀ l, limit = some l → pre.accumulated = some (min l (total ms).width) := by
  obtain ⟨ht, K, hch, hd⟩ := h
  obtain ⟨ms', pm, hd'⟩ := hd.perm hp
  obtain ⟨K', hch', hK'⟩ := charsets_exist _ ht
  have hK : K' = K := (hch'.fn .void).symm.trans (hch.fn .void)
  subst hK
  obtain ⟨its, hi, hm⟩ := args_exact (τ := true) (sg := sg) Maker.lawful hK' hd' hch fp (by simp [Call.pack])
  obtain ⟨h1, h2⟩ := Print.measure_size_exact (τ := true) Maker.lawful pm hm (limit.map .init) (by
    intro a ha
    obtain ⟨l, hl, rfl⟩ := Option.map_eq_some_iff.mp ha
    exact ⟨l, rfl, hlim l hl⟩)
  obtain ⟨pre, e, hs⟩ := Option.bind_eq_some_iff.mp h1
  refine ⟨pre, ?_, ?_, ?_⟩
  · unfold measured; rw [hi]; exact e
  · simpa [Call.text] using hs
  · intro l hl
    have := h2 (.init l) (by rw [hl]; rfl)
    rw [e] at this
    exact this

/-- C79 (part): the same for the width only. -/
theorem measure_call_width_partial {fp : Pack} {args : List Arg} (h : (Call.mk [] fp args false).Means T B ms) (l : Int)
    (hl : CInt.InI32 l ∧ l ≤ B ∧ ((total ms).room ≤ wmax ∨ max 0 l + (total ms).cost ≤ wmax)) :
    ∃ pre, measured Maker.dest T sg fp args false (some l) = some pre ∧ pre.accumulated = some (min l (total ms).width) := by
  obtain ⟨ht, K, hch, hd⟩ := h
  obtain ⟨K', hch', hK'⟩ := charsets_exist _ ht
  have hK : K' = K := (hch'.fn .void).symm.trans (hch.fn .void)
  subst hK
  obtain ⟨its, hi, hm⟩ := args_exact (τ := true) (sg := sg) Maker.lawful hK' hd hch fp (by simp [Call.pack])
  have h1 := Print.measure_width_exact (τ := true) hm l hl.1 hl.2.1 hl.2.2
  obtain ⟨pre, e, hs⟩ := Option.bind_eq_some_iff.mp h1
  refine ⟨pre, ?_, hs⟩
  unfold measured; rw [hi]; exact e

/-! ### cases -/

/-- `to_u8string.with(numpunct<10>(3)).trline(u8"{1} of {}, {} {} {{", !dec(12345), 7)` -/
def aTrCall : TrCall where
  withs := [[.facet (.numpunct 10) (.numpunct 10 ⟨Numpunct.ctor2 [3], 0x2E, 0x2C⟩)]]
  facets := []
  args := [.int intTy [.punct] 12345, .int intTy [] 7]
  eol := true
  str := Print.txt "{1} of {}, {} {} {{"

/-- what to_string returns, and the positions that were reported -/
def trCallPrinted (T : CharT) (c : TrCall) : Option (Option (List Nat) × List Nat) :=
  (c.print Maker.dest T (fun _ => false) (Maker.init (List.replicate 64 0))).map fun r => ((Maker.finishE true r.1).2, r.2)

example : trCallPrinted .char8 aTrCall = some (some (Print.txt "7 of 12,345, 7 " ++ [0xEF, 0xBF, 0xBD] ++ Print.txt " {\n"), [14]) := by
  decide +kernel

theorem aTrCall_means : ∃ segs ms text, aTrCall.Text .char8 0 segs ms text := by
  have ht : AllTyped aTrCall.pack := by
    simp [aTrCall, Call.pack, AllTyped, Typed, FacetArg.cat, FacetArg.Typed]
  have hw : ∀ tag U, Holds aTrCall.pack tag (.charset U ⟨utfOf U, true⟩) := fun tag U => .inr ⟨rfl, rfl⟩
  have np : ∀ {t}, Holds aTrCall.pack (.int t) (.numpunct 10 ⟨Numpunct.ctor2 [3], 0x2E, 0x2C⟩) := .inl ⟨[], rfl⟩
  have lc : ∀ {t}, Holds aTrCall.pack (.int t) (.lettercase .lower) := .inr ⟨rfl, rfl⟩
  have all : ∃ ms, DenoteAll .char8 (fun U => ⟨utfOf U, true⟩) aTrCall.pack 0 aTrCall.args ms := by
    refine denote_cons ⟨_, .int .none .lower ⟨Numpunct.ctor2 [3], 0x2E, 0x2C⟩ [3] true ⟨rfl, rfl, by decide, Width.round_correct 0 (by decide)⟩ lc np
      ⟨rfl, no_dynamic_keeps _ (by decide), by unfold SignOnly; decide, by decide, by decide, by decide, rfl, by decide, .inr (.inl (by decide)), .inl (by decide)⟩⟩ ?_
    exact denote_cons ⟨_, plain_int intTy 7 (by decide) .lower _ lc np⟩ ⟨_, .nil⟩
  obtain ⟨ms, hm⟩ := all
  obtain ⟨segs, hr⟩ := Print.reads_exists _ aTrCall.str (Nat.le_refl _) 0
  exact ⟨segs, ms, _, .intro _ ht hw hm hr⟩

/-- the theorems on `measure` apply, with a limit of ten columns -/
example : ∃ ms, (Call.mk [] [] [.int intTy [] (-12), .int intTy [] 7] false).Means .char8 655360 ms ∧ (total ms).room ≤ wmax ∧
    (total ms).text = Print.txt "-127" := by
  refine ⟨_, ⟨by trivial, fun U => ⟨utfOf U, true⟩, fun tag U => .inr ⟨rfl, rfl⟩,
    .cons (plain_int intTy (-12) (by decide) .lower _ (.inr ⟨rfl, rfl⟩) (.inr ⟨rfl, rfl⟩))
      (.cons (plain_int intTy 7 (by decide) .lower _ (.inr ⟨rfl, rfl⟩) (.inr ⟨rfl, rfl⟩)) .nil)⟩, ?_, ?_⟩ <;> decide +kernel

/-- the arguments of aCall, measured in reverse order: 40 code units, 40 columns; and with the limit of 12.5 columns -/
example : (measured Maker.dest .char8 (fun _ => false) aCall.pack aCall.args.reverse true (some 0x7fffffff)).map (fun p => (p.size, p.accumulated)) =
      some (some 40, some (40 * 65536)) ∧
    (measured Maker.dest .char8 (fun _ => false) aCall.pack aCall.args false (some 819200)).map (fun p => (p.size, p.accumulated)) =
      some (none, some 819200) := by
  decide +kernel

end Strf.Program

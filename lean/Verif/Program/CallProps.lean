import Verif.Program.Props
import Verif.Print.PolicyProps
/-!
# C73, C74: whole calls, on all destinations
-/
namespace Strf.Program
open Strf.Format
open Strf.Print (Item Meaning AllMean total printPlain printCalc lineText)
open Strf.Dest (Dest Lawful Maker Sized Appender Writer World Arr)
open Strf.Facets (writtenAll)
open Strf.Width (wmax)

variable {σ : Type} {D : Dest Nat σ} {Rep : σ → List Nat → Prop} {T : CharT} {sg : CharT → Bool} {B : Int} {c : Call} {ms : List Meaning}

theorem call_pack (c : Call) : writtenAll (Facets.callFacets (Facets.withAll [] c.withs) c.facets) = writtenAll c.pack := by
  have : ∀ (l : List Pack) (a : Pack), Facets.withAll a l = a ++ l.flatten := by
    intro l
    induction l with
    | nil => intro a; simp [Facets.withAll]
    | cons x l ih =>
      intro a
      have := ih (Facets.merge a x)
      unfold Facets.withAll at this ⊢
      rw [List.foldl_cons, this]; simp [Facets.merge]
  rw [this]
  unfold Facets.callFacets Call.pack
  rw [Facets.writtenAll_cons, Facets.writtenAll_append]
  simp only [Facets.Fpe.written, List.nil_append]

/-- C73 (part): a call that means something (`Call.Means`) compiles, and the printer of each argument prints what the argument means, on any destination
that keeps the contract of destinations (C09). What is missing is false of the code: what `Denotes` asks of the arguments and was found false in C66, C68–C70, and
the letter case of a floating-point number without format (`call_tag_wrong`). -/
theorem call_exact_partial (L : Lawful D Rep) (h : c.Means T B ms) : ∃ its, c.items D T sg = some its ∧ AllMean τ D Rep B its ms := by
  obtain ⟨ht, K, hch, hd⟩ := h
  obtain ⟨K', hch', hK'⟩ := charsets_exist c.pack ht
  have hK : K' = K := (hch'.fn .void).symm.trans (hch.fn .void)
  subst hK
  exact args_exact L hK' hd hch _ (call_pack c)

/-- C73: strf::to_string…(args...) returns the text of the call. -/
theorem call_to_string_partial (h : c.Means T B ms) (junk : List Nat) (hj : junk.length = 64) :
    ∃ its s, c.items Maker.dest T sg = some its ∧ printPlain Maker.dest c.eol its (Maker.init junk) = some s ∧
      (Maker.finishE true s).2 = some (c.text ms) := by
  obtain ⟨its, hi, hm⟩ := call_exact_partial (τ := true) (sg := sg) Maker.lawful h
  obtain ⟨s, e, r⟩ := Print.to_string_exact (τ := true) hm c.eol junk hj
  exact ⟨its, s, hi, e, r⟩

/-- C73: so does to_string.reserve(n), whatever `n`; and to_string.reserve_calc(), whatever the order of evaluation, that creates the
string with exactly the size of the text. -/
theorem call_to_string_reserve_partial (h : c.Means T B ms) :
    ∃ its, c.items (Sized.dest 0) T sg = some its ∧
      (∀ n, ∃ s, printPlain (Sized.dest 0) c.eol its (Sized.init 0 n) = some s ∧ Sized.finish s = c.text ms) ∧
      ∀ order : List Nat, order.Perm (List.range c.args.length) →
        ∃ s, printCalc (Sized.dest 0) c.eol its order (Sized.init 0) = some s ∧ Sized.finish s = c.text ms ∧
          ∀ create : Nat → Sized Nat, create (c.text ms).length = Sized.init 0 (c.text ms).length →
            printCalc (Sized.dest 0) c.eol its order create = some s := by
  obtain ⟨its, hi, hm⟩ := call_exact_partial (τ := true) (sg := sg) (Sized.lawful 0) h
  obtain ⟨h1, h2⟩ := Print.to_string_reserve_exact (τ := true) hm c.eol
  refine ⟨its, hi, h1, fun order ho => h2 order ?_⟩
  have : ∀ (l : List Arg) (fp : Pack) its, items (Sized.dest 0) T sg fp l = some its → its.length = l.length := by
    intro l
    induction l with
    | nil => intro fp its e; simp only [items, Option.some.injEq] at e; subst e; rfl
    | cons a l ih =>
      intro fp its e
      unfold items at e
      obtain ⟨it, _, e⟩ := Option.bind_eq_some_iff.mp e
      obtain ⟨r, e1, rfl⟩ := Option.map_eq_some_iff.mp e
      simp [ih fp r e1]
  rw [this _ _ _ hi]; exact ho

/-- C73: strf::append(str)…(args...) appends the text to the string. -/
theorem call_append_partial (h : c.Means T B ms) (start junk : List Nat) (hj : junk.length = 64) :
    ∃ its s, c.items Appender.dest T sg = some its ∧ printPlain Appender.dest c.eol its (Appender.init start junk) = some s ∧
      (Appender.destroyE true (Appender.finishE true s).1).str = start ++ c.text ms := by
  obtain ⟨its, hi, hm⟩ := call_exact_partial (τ := true) (sg := sg) (Appender.lawful start) h
  obtain ⟨⟨s, e, r⟩, _⟩ := Print.append_exact (τ := true) hm c.eol junk hj
  exact ⟨its, s, hi, e, r⟩

/-- C73: strf::to(FILE*)…(args...): the file receives the text, or, if it fails, a prefix of it, and the result says so. -/
theorem call_to_cfile_partial (h : c.Means T B ms) (acc : World Nat) (junk : List Nat) (hj : 64 ≤ junk.length) :
    ∃ its s, c.items (Writer.cfile acc) T sg = some its ∧ printPlain (Writer.cfile acc) c.eol its (Writer.init junk) = some s ∧
      (Writer.finish acc s).1.file <+: c.text ms ∧
      (Writer.finish acc s).2.1 = (Writer.finish acc s).1.file.length ∧
      ((Writer.finish acc s).2.2 = true ↔ (Writer.finish acc s).1.file = c.text ms) := by
  obtain ⟨its, hi, hm⟩ := call_exact_partial (τ := true) (sg := sg) (Writer.lawful acc) h
  obtain ⟨s, e, r⟩ := Print.to_cfile_exact (τ := true) acc hm c.eol junk hj
  exact ⟨its, s, hi, e, r⟩

/-- C73: strf::to(streambuf)…(args...) -/
theorem call_to_streambuf_partial (h : c.Means T B ms) (acc : World Nat) (junk : List Nat) (hj : 64 ≤ junk.length) :
    ∃ its s, c.items (Writer.streambuf acc) T sg = some its ∧
      printPlain (Writer.streambuf acc) c.eol its (Writer.init junk) = some s ∧
      (Writer.finishSb acc s).2.1 = (Writer.finishSb acc s).1.file.length ∧
      ((Writer.finishSb acc s).2.2 = true ↔ (Writer.finishSb acc s).1.file = c.text ms) := by
  obtain ⟨its, hi, hm⟩ := call_exact_partial (τ := true) (sg := sg) (Writer.lawfulSb acc) h
  obtain ⟨s, e, r⟩ := Print.to_streambuf_exact (τ := true) acc hm c.eol junk hj
  exact ⟨its, s, hi, e, r⟩

/-- C73: strf::to(char_array)…(args...): nothing outside of the array is written; if the text leaves more than 64 elements free
it is all there, terminated; in any case, if the result does not say that it is truncated. -/
theorem call_to_cstr_partial (h : c.Means T B ms) (arr garb : List Nat) (hN : 1 ≤ arr.length) (hg : garb.length = 64) :
    ∃ its s, c.items Arr.dest T sg = some its ∧ printPlain Arr.dest c.eol its (Arr.initCstr arr garb) = some s ∧
      s.arr.length = arr.length ∧ ((c.text ms).length + 64 < arr.length → s.good = true) ∧
      (s.good = true → ∃ s', Arr.finishCstr 0 s = some (s', .user (c.text ms).length, false) ∧
        s'.arr.take ((c.text ms).length + 1) = c.text ms ++ [0]) ∧
      (s.good = false → ∃ k, k ≤ (c.text ms).length ∧ k < arr.length ∧ arr.length ≤ k + 64 ∧
        s.arr.take k = (c.text ms).take k ∧
        (s.it ≠ .garbage 64 → ∃ s', Arr.finishCstr 0 s = some (s', .user k, true) ∧ s'.arr.length = arr.length ∧
          s'.arr.take (k + 1) = (c.text ms).take k ++ [0])) := by
  obtain ⟨its, hi, hm⟩ := call_exact_partial (τ := true) (sg := sg) (Arr.lawful arr.length (arr.length - 1)) h
  obtain ⟨s, e, r⟩ := Print.to_cstr_exact_partial (τ := true) arr garb hN hg hm c.eol
  exact ⟨its, s, hi, e, r⟩

/-- C73: The text of a call is one text. -/
theorem call_text_unique {ms' : List Meaning} {B' : Int} (h : c.Means T B ms) (h' : c.Means T B' ms') : c.text ms = c.text ms' := by
  obtain ⟨its, s, hi, e, r⟩ := call_to_string_partial (sg := fun _ => false) h (List.replicate 64 0) (by simp)
  obtain ⟨its', s', hi', e', r'⟩ := call_to_string_partial (sg := fun _ => false) h' (List.replicate 64 0) (by simp)
  rw [hi] at hi'; cases hi'
  rw [e] at e'; cases e'
  rw [r] at r'
  exact Option.some.inj r'

/-- C74: in a call there is one charset for each character type: the last one written, for arguments of all types, also inside of
`strf::with(fs...)(...)`; nothing that compiles changes it. `fp` are the facets of the call. -/
theorem charset_uniform (fp fs : Pack) (h : AllTyped fp) (hs : AllTyped fs) (hc : allConstrainable fs = true) (U : CharT) :
    ∃ e : CharsetArg, e.name.unitSize = U.size ∧
      (∀ tag, theCharset fp tag U = e ∧ theCharset (Facets.childFacets fp fs) tag U = e) ∧
      ((∃ before after f, writtenAll fp = before ++ (.charset U, f, .charset U e) :: after ∧ ∀ x ∈ after, x.1 ≠ .charset U) ∨
        e = ⟨utfOf U, true⟩ ∧ ∀ x ∈ writtenAll fp, x.1 ≠ .charset U) := by
  obtain ⟨K, hch, hK⟩ := charsets_exist fp h
  have h2 : CharsetsAre (Facets.childFacets fp fs) K :=
    (hch.append hs hc).congr (by rw [Facets.writtenAll_append]; simp [Facets.childFacets, writtenAll, Facets.Fpe.written])
  refine ⟨K U, hK U, fun tag => ⟨by rw [hch.fn], by rw [h2.fn]⟩, ?_⟩
  have hv := hch .void U
  unfold Holds Facets.InForce at hv
  have all : ∀ x ∈ writtenAll fp, (decide (x.1 = Cat.charset U) && x.2.1 Tag.void) = decide (x.1 = Cat.charset U) := by
    intro x hx
    by_cases e : x.1 = .charset U
    · simp [e, (charsets_written fp h x hx U e).1]
    · simp [e]
  have key : ∀ (l : List (Cat × (Tag → Bool) × FacetArg)) b v, (l.filter fun x => decide (x.1 = Cat.charset U)).map (fun x => x.2.2) = b ++ [v] →
      ∃ before after x, l = before ++ x :: after ∧ x.1 = .charset U ∧ x.2.2 = v ∧ ∀ x ∈ after, x.1 ≠ .charset U := by
    intro l
    induction l with
    | nil => intro b v e; simp at e
    | cons y l ih =>
      intro b v e
      by_cases hy : y.1 = .charset U
      · rw [List.filter_cons_of_pos (by simpa using hy), List.map_cons] at e
        cases b with
        | nil =>
          simp only [List.nil_append, List.cons.injEq, List.map_eq_nil_iff, List.filter_eq_nil_iff, decide_eq_true_eq] at e
          exact ⟨[], l, y, rfl, hy, e.1, e.2⟩
        | cons z b =>
          simp only [List.cons_append, List.cons.injEq] at e
          obtain ⟨b', a', x, rfl, h1, h2, h3⟩ := ih b v e.2
          exact ⟨y :: b', a', x, rfl, h1, h2, h3⟩
      · rw [List.filter_cons_of_neg (by simpa using hy)] at e
        obtain ⟨b', a', x, rfl, h1, h2, h3⟩ := ih b v e
        exact ⟨y :: b', a', x, rfl, h1, h2, h3⟩
  unfold Facets.applicable at hv
  rw [show (FacetArg.charset U (K U)).cat = Cat.charset U from rfl, List.filter_congr all] at hv
  rcases hv with ⟨b, hb⟩ | ⟨hn, hd⟩
  · left
    obtain ⟨b', a', x, e, h1, h3, h4⟩ := key _ _ _ hb
    refine ⟨b', a', x.2.1, ?_, h4⟩
    rw [e, ← h1, ← h3]
  · right
    refine ⟨by simpa [dflt] using hd, ?_⟩
    simpa [List.filter_eq_nil_iff] using hn

/-! ### cases -/

/-- what `strf::to_string…(args...)` returns -/
def callPrinted (T : CharT) (c : Call) : Option (List Nat) :=
  (c.items Maker.dest T fun _ => false).bind fun its =>
    (printPlain Maker.dest c.eol its (Maker.init (List.replicate 64 0))).bind fun s => (Maker.finishE true s).2

/-- the type `unsigned` -/
def uintTy : IntTy := ⟨.int, false⟩

/-- a filter: booleans -/
def isBool : Tag → Bool := fun t => t = .bool

/-- `to_u8string.with(numpunct<10>(3).thousands_sep('.'), constrain<is_bool>(uppercase)).line(u8"x = ", punct(1234567), u8' ',
with(uppercase)(*hex(255u), false), true, join_right(6, '*')(-42, u8"a"), tr(u8"{1}{0}!", 1, 2), separated_range({7, 8}, u8", "))` -/
def aCall : Call where
  withs := [[.facet (.numpunct 10) (.numpunct 10 ⟨Numpunct.ctor2 [3], 0x2C, 0x2E⟩)],
    [.constrained isBool (.facet .lettercase (.lettercase .upper))]]
  facets := []
  args := [.str .char8 [] (Print.txt "x = "), .int intTy [.punct] 1234567, .rawChr .char8 0x20,
    .inner [.facet .lettercase (.lettercase .mixed)] [.int uintTy [.hex, .star] 255, .bool none false], .bool none true,
    .alignedJoin ⟨0x2A, .right, 6 * 65536⟩ [.int intTy [] (-42), .str .char8 [] (Print.txt "a")],
    .tr (Print.txt "{1}{0}!") [.int intTy [] 1, .int intTy [] 2],
    .separatedRange false (Print.txt ", ") [.int intTy [] 7, .int intTy [] 8]]
  eol := true

example : callPrinted .char8 aCall = some (Print.txt "x = 1.234.567 0xFFFalseTRUE**-42a21!7, 8\n") := by decide +kernel

/-- C73 fails for floating-point numbers without format: `to_u8string.with(constrain<is_double>(uppercase))(1e100)` prints "1e+100",
but with a format function that changes nothing "1E+100"; and constrained to `float`, the facet has effect on `double`. -/
theorem call_tag_wrong :
    let isFloat (F : Float.FloatT) : Tag → Bool := fun t => t = .float F
    let print F cs := callPrinted .char8
      ⟨[], [.constrained (isFloat F) (.facet .lettercase (.lettercase .upper))], [.float .double cs 0x54B249AD2594C37D], false⟩
    print .double [] = some (Print.txt "1e+100") ∧ print .double [.align (.right 0)] = some (Print.txt "1E+100") ∧
      print .float [] = some (Print.txt "1E+100") := by
  decide +kernel

theorem plain_int {fp : Pack} {K : CharT → CharsetArg} (t : IntTy) (x : Int) (hx : (t.val x).Ok) (lc : IntDigits.Spec.Lettercase)
    (np : Numpunct.Facet) (h1 : Holds fp (.int t) (.lettercase lc)) (h2 : Holds fp (.int t) (.numpunct 10 np)) :
    Denotes T K fp B (.int t [] x) (.ofColumns (IntPrinter.Spec.formatted (enc T K) lc (enc T K np.thousandsSep) [] false
      (usedOptions []) .none (t.val x)) (IntPrinter.Spec.width [] false (usedOptions []) .none (t.val x))) := by
  have hg : (IntPrinter.Spec.groups [] false (usedOptions []) (t.val x)).length = 1 := by rw [IntPrinter.groups_none]; rfl
  exact .int .none lc np [] false ⟨rfl, rfl, by decide, Width.round_correct 0 (by decide)⟩ h1 h2
    ⟨rfl, no_dynamic_keeps [] (by simp), by unfold SignOnly; decide, by decide, by decide, by decide, ⟨rfl, rfl⟩, hx, .inl hg, .inl (by decide)⟩

theorem denote_cons {K : CharT → CharsetArg} {fp : Pack} {a : Arg} {l : List Arg} (h : ∃ m, Denotes T K fp B a m)
    (h' : ∃ ms, DenoteAll T K fp B l ms) : ∃ ms, DenoteAll T K fp B (a :: l) ms :=
  ⟨_, .cons h.choose_spec h'.choose_spec⟩

/-- the theorems apply to that call -/
theorem aCall_means : ∃ ms, aCall.Means .char8 0 ms ∧ aCall.text ms = Print.txt "x = 1.234.567 0xFFFalseTRUE**-42a21!7, 8\n" := by
  have ht : AllTyped aCall.pack := by
    simp [aCall, Call.pack, AllTyped, Typed, FacetArg.cat, FacetArg.Typed, constrainable, FacetArg.constrainable]
  have hw : ∀ tag U, Holds aCall.pack tag (.charset U ⟨utfOf U, true⟩) := fun tag U => .inr ⟨rfl, rfl⟩
  have np : ∀ {t}, Holds aCall.pack (.int t) (.numpunct 10 ⟨Numpunct.ctor2 [3], 0x2C, 0x2E⟩) := .inl ⟨[], rfl⟩
  have lc : ∀ {t}, Holds aCall.pack (.int t) (.lettercase .lower) := .inr ⟨rfl, rfl⟩
  have wc : ∀ {t}, Holds aCall.pack t (.widthCalc .std) := .inr ⟨rfl, rfl⟩
  have all : ∃ ms, DenoteAll .char8 (fun U => ⟨utfOf U, true⟩) aCall.pack 0 aCall.args ms := by
    refine denote_cons ⟨_, .str .std (Print.txt "x = ") 0 wc ⟨rfl, by decide, by decide, fun e => (by cases e), fun _ => rfl, fun p e => (by cases e), by decide, .inl rfl, rfl, fun e => (by cases e), by decide⟩ (by decide +kernel)⟩ ?_
    refine denote_cons ⟨_, .int .none .lower ⟨Numpunct.ctor2 [3], 0x2C, 0x2E⟩ [3] true ⟨rfl, rfl, by decide, Width.round_correct 0 (by decide)⟩ lc np
      ⟨rfl, no_dynamic_keeps _ (by decide), by unfold SignOnly; decide, by decide, by decide, by decide, rfl, by decide, .inr (.inl (by decide)), .inl (by decide)⟩⟩ ?_
    refine denote_cons ⟨_, .rawChr .std wc (.inl rfl) (by decide)⟩ ?_
    refine denote_cons ⟨_, .inner ?_ rfl (.cons (.int .none .mixed Numpunct.Facet.default [] false ⟨rfl, rfl, by decide, Width.round_correct 0 (by decide)⟩ (.inl ⟨[], rfl⟩) (.inr ⟨rfl, rfl⟩)
        ⟨rfl, no_dynamic_keeps _ (by decide), by unfold SignOnly; decide, by decide, by decide, by decide, ⟨rfl, rfl⟩, by decide, .inl (by rw [IntPrinter.groups_none]; rfl), .inl (by decide)⟩)
        (.cons (.rawBool .mixed (.inl ⟨[.lettercase .upper], rfl⟩)) .nil))⟩ ?_
    · simp [AllTyped, Typed, FacetArg.cat, FacetArg.Typed]
    refine denote_cons ⟨_, .rawBool .upper (.inl ⟨[], rfl⟩)⟩ ?_
    refine denote_cons ⟨_, .alignedJoin 2 (by decide) (by decide) (.cons (plain_int intTy (-42) (by decide) .lower _ lc np)
      (.cons (.str .std (Print.txt "a") 0 wc ⟨rfl, by decide, by decide, fun e => (by cases e), fun _ => rfl, fun p e => (by cases e), by decide, .inl rfl, rfl, fun e => (by cases e), by decide⟩ (by decide +kernel)) .nil)) ?_ ?_ ?_ ?_⟩ ?_
    · decide +kernel
    · decide +kernel
    · decide +kernel
    · decide +kernel
    refine denote_cons ⟨_, .tr .std wc (segs := [.at 1 0, .at 0 3, .char 0x21]) ?_ ?_ (.cons (plain_int intTy 1 (by decide) .lower _ lc np) (.cons (plain_int intTy 2 (by decide) .lower _ lc np) .nil)) ?_⟩ ?_
    · refine .positional (ds := [0x31]) (l := Print.txt "}{0}!") (by decide) (by decide) (by decide) ?_
      refine .positional (ds := [0x30]) (l := Print.txt "}!") (by decide) (by decide) (by decide) ?_
      exact .char (by decide) .done
    · intro run hrun
      simp [Tr.pieces] at hrun
      rcases hrun with rfl | rfl | rfl <;> exact ⟨by simp [utfOf, CsName.cs, Print.Cs.Units, Utf.Units, Utf.Enc.bound], by simp⟩
    · decide +kernel
    exact denote_cons ⟨_, .separatedRange .std wc (by decide) (fun e => (by cases e)) (by decide) (.cons (plain_int intTy 7 (by decide) .lower _ lc np) (.cons (plain_int intTy 8 (by decide) .lower _ lc np) .nil))⟩ ⟨_, .nil⟩
  obtain ⟨ms, hm⟩ := all
  have hM : aCall.Means .char8 0 ms := ⟨ht, _, hw, hm⟩
  refine ⟨ms, hM, ?_⟩
  obtain ⟨its, s, hi, e, r⟩ := call_to_string_partial (sg := fun _ => false) hM (List.replicate 64 0) (by simp)
  have hd : callPrinted .char8 aCall = some (Print.txt "x = 1.234.567 0xFFFalseTRUE**-42a21!7, 8\n") := by decide +kernel
  rw [callPrinted, hi, Option.bind_some, e, Option.bind_some, r] at hd
  exact Option.some.inj hd

end Strf.Program

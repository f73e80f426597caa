import Verif.Format.StringModel
import Verif.Format.IntProps
/-!
# C69: chains of format functions of strings
-/
namespace Strf.Format
open Strf.IntPrinter (AlignFmt)
open Strf.Print (Item Cs Calc Policy Comparison How choose stringItem Charset Meaning Pre FillCount padded ssizeMax preciseMeaning)
open Strf.Dest (Dest Lawful Prints)
open Strf.Width (wmax)

variable {σ : Type} {D : Dest Nat σ} {Rep : σ → List Nat → Prop}

/-! ### charsets -/

theorem sbcIds_nodup : sbcIds.Nodup := by decide

/-- the ids of the charsets are different -/
theorem id_injective {a b : CsName} (h : a.id = b.id) : a = b := by
  have hs : ∀ i : Fin 25, (CsName.sbc i).id ≠ (CsName.utf .utf8).id ∧ (CsName.sbc i).id ≠ (CsName.utf .utf16).id ∧
    (CsName.sbc i).id ≠ (CsName.utf .utf32).id := by decide
  cases a with
  | utf e =>
    cases b with
    | utf f => cases e <;> cases f <;> first | rfl | (exact absurd h (by decide))
    | sbc j => cases e <;> first | exact absurd h.symm (hs j).1 | exact absurd h.symm (hs j).2.1 | exact absurd h.symm (hs j).2.2
  | sbc i =>
    cases b with
    | utf f => cases f <;> first | exact absurd h (hs i).1 | exact absurd h (hs i).2.1 | exact absurd h (hs i).2.2
    | sbc j =>
      have := (List.Nodup.getElem_inj_iff sbcIds_nodup).mp h
      congr 1
      exact Fin.ext this

theorem id_eq_iff {a b : CsName} : a.id = b.id ↔ a = b := ⟨id_injective, congrArg _⟩

theorem cs_units {T : CharT} {n : CsName} (hn : n.unitSize = T.size) {src : List Nat} (h : T.Units src) : n.cs.Units src := by
  unfold CharT.Units at h
  rw [← hn] at h
  cases n with
  | utf e => cases e <;> exact h
  | sbc i => exact ⟨List.get_mem _ _, h⟩

theorem charset_lawful (L : Lawful D Rep) (n : CsName) : (n.charset D).Lawful D Rep := by
  cases n with
  | utf e => exact Print.utf_lawful L e
  | sbc i => exact Print.sbc_lawful L _ (List.get_mem _ _)

/-! ### the state after a chain of calls -/

structure SStateOf (cs : List StringCall) (v : StringVal) : Prop where
  precision : v.precision = precisionOf cs
  policy : v.policy = policyOf cs
  charset : ∀ facet, v.charset.getD facet = charsetOf facet cs
  align : v.align.getD AlignFmt.dflt = stringAlign cs
  none : v.policy = .noTranscode → v.charset = none

theorem stringAlignCalls_append (cs : List StringCall) (c : StringCall) : stringAlignCalls (cs ++ [c]) =
    stringAlignCalls cs ++ (match c.align? with | none => [] | some a => [a]) := by
  unfold stringAlignCalls
  rw [List.filterMap_append]
  cases h : c.align? <;> simp [List.filterMap_cons, h]

theorem sstep_state (cs : List StringCall) (v : StringVal) (c : StringCall) (h : SStateOf cs v) :
    SStateOf (cs ++ [c]) (v.step c) := by
  obtain ⟨pr, al, ch, po⟩ := v
  obtain ⟨h1, h2, h3, h4, h5⟩ := h
  dsimp only at h1 h2 h3 h4 h5
  constructor
  · unfold precisionOf at *
    rw [last_append, ← h1]
    rcases c with _ | (_ | _) | (_ | _) | (_ | _) | _ <;> rfl
  · unfold policyOf at *
    rw [last_append, ← h2]
    rcases c with _ | (_ | _) | (_ | _) | (_ | _) | _ <;> rfl
  · intro facet
    unfold charsetOf at *
    rw [last_append, ← h3 facet]
    rcases c with _ | (_ | _) | (_ | _) | (_ | _) | _ <;> rfl
  · unfold stringAlign at *
    rw [stringAlignCalls_append]
    rcases c with _ | (_ | _) | (_ | _) | (_ | _) | a <;>
      simp only [StringCall.align?, StringVal.step, List.append_nil] <;> try exact h4
    exact (alignStep_ok al a _ h4).1
  · rcases c with _ | (_ | _) | (_ | _) | (_ | _) | _ <;> simp only [StringVal.step, reduceCtorEq, false_implies] <;> exact h5

/-- after a chain of calls, the value holds the options given last -/
theorem string_chain_state (cs : List StringCall) : SStateOf cs (stringChain cs) := by
  induction cs using List.reverseRecOn with
  | nil => exact ⟨rfl, rfl, fun _ => rfl, rfl, fun _ => rfl⟩
  | append_singleton cs c ih =>
    have : stringChain (cs ++ [c]) = (stringChain cs).step c := by simp [stringChain]
    rw [this]
    exact sstep_state cs _ c ih

/-! ### the text -/

theorem compare_same {s d : CharsetArg} : (compareCharsets s d).same = true → s.name = d.name := by
  unfold compareCharsets
  split_ifs with h1 h2 h3
  · intro _; exact id_injective h2
  · intro h; cases h
  · intro h; exact id_injective (by simpa [Comparison.same] using h)
  · intro h; cases h

theorem compare_other {s d : CharsetArg} : (compareCharsets s d).same = false → s.name ≠ d.name := by
  unfold compareCharsets
  split_ifs with h1 h2 h3
  · intro h; cases h
  · intro _ h; exact h2 (congrArg _ h)
  · intro h g; rw [g] at h; simp [Comparison.same] at h
  · intro _ h; exact h3 (congrArg _ h)

/-- what the printer chosen prints is what is asked for -/
theorem how_text (S T : CharT) (F : StringFacets) (v : StringVal) (x : List Nat)
    (hw : v.policy = .unchecked → (v.charset.getD (F.charset S)).name.cs.WellFormed x) :
    (v.how F S T).text (v.charset.getD (F.charset S)).name.cs (F.charset T).name.cs x =
      textOf v.policy (v.charset.getD (F.charset S)).name (F.charset T).name x := by
  unfold StringVal.how textOf
  generalize hs : v.charset.getD (F.charset S) = s at *
  generalize hc : compareCharsets s (F.charset T) = c
  obtain ⟨p1, p2, p3, p4, p5⟩ := Print.policy_choice (decide (S = T)) c
  have heq : c.same = true → s.name = (F.charset T).name := fun h => compare_same (by rw [hc]; exact h)
  have hne : c.same = false → s.name ≠ (F.charset T).name := fun h => compare_other (by rw [hc]; exact h)
  cases hp : v.policy with
  | noTranscode => rw [p1]; split <;> rfl
  | saniUnconditionally => rw [p2]; rfl
  | saniOnlyIfDifferent =>
    rw [p3]
    cases hsm : c.same with
    | false => simp only [hne hsm, if_false, Bool.false_eq_true]; rfl
    | true => simp only [heq hsm, if_true]; split <;> rfl
  | unchecked =>
    cases hsm : c.same with
    | false => rw [p4 hsm]; rfl
    | true =>
      have e := heq hsm
      rcases p5 hsm with g | g
      · rw [g]; rfl
      · rw [g, e]
        have hwf := hw hp
        rw [e] at hwf
        exact Print.policies_agree _ _ hwf _ .unchecked

theorem how_ok (S T : CharT) (F : StringFacets) (hF : (F.charset T).name.unitSize = T.size) (v : StringVal) (x : List Nat)
    (hu : (v.charset.getD (F.charset S)).name.cs.Units x)
    (hw : v.policy = .unchecked → (v.charset.getD (F.charset S)).name.cs.WellFormed x) :
    (v.how F S T).Ok (v.charset.getD (F.charset S)).name.cs (F.charset T).name.cs x := by
  have hd : (F.charset T).name.cs.Units [] := cs_units hF (by intro u hu; cases hu)
  unfold StringVal.how
  generalize hs : v.charset.getD (F.charset S) = s at *
  generalize hc : compareCharsets s (F.charset T) = c
  obtain ⟨p1, p2, p3, p4, p5⟩ := Print.policy_choice (decide (S = T)) c
  cases hp : v.policy with
  | noTranscode => rw [p1]; split <;> trivial
  | saniUnconditionally => rw [p2]; exact ⟨hu, hd⟩
  | saniOnlyIfDifferent =>
    rw [p3]
    split
    · split <;> trivial
    · exact ⟨hu, hd⟩
  | unchecked =>
    cases hsm : c.same with
    | false => rw [p4 hsm]; exact hw hp
    | true =>
      rcases p5 hsm with g | g
      · rw [g]; exact hw hp
      · rw [g]; split <;> trivial

/-- The width of a string of type `S`, whose charset was given with a format function and is that of the destination, is
calculated with the right charset: not if `S` is not the character type of the destination, unless the facet for `S` is the same charset or is
not used (`charset_width_wrong`), or the string is to be transcoded unchecked and no charset is a dynamic one. Otherwise the width is that
in the facet for `S`: `string_chain_copied`. -/
def WidthCharsetOk (F : StringFacets) (S T : CharT) (cs : List StringCall) : Prop :=
  S = T ∨ policyOf cs = .saniUnconditionally ∨ (charsetOf (F.charset S) cs).name ≠ (F.charset T).name ∨
    (charsetOf (F.charset S) cs).name = (F.charset S).name ∨ F.widthCalc = .fast ∨
    (policyOf cs = .unchecked ∧ (charsetOf (F.charset S) cs).isStatic = true ∧ (F.charset T).isStatic = true)

theorem width_charset (S T : CharT) (F : StringFacets) (signed : Bool) (cs : List StringCall) (v : StringVal) (hv : SStateOf cs v)
    (hcomp : v.compiles F S T = true) (hw : WidthCharsetOk F S T cs) :
    F.widthCalc.on signed (v.widthCharset F S (v.how F S T)).cs = F.widthCalc.on signed (charsetOf (F.charset S) cs).name.cs := by
  have hcs := hv.charset (F.charset S)
  unfold WidthCharsetOk at hw
  rw [← hcs] at hw ⊢
  unfold StringVal.widthCharset
  cases hh : v.how F S T with
  | transcode => rfl
  | unchecked => rfl
  | copy | copyOther =>
    by_cases hfast : F.widthCalc = .fast
    · rw [hfast]; rfl
    · suffices e : (F.charset S).name = (v.charset.getD (F.charset S)).name by simp only [e]
      cases hp : v.policy with
      | noTranscode => rw [hv.none hp]; rfl
      | saniUnconditionally => unfold StringVal.how at hh; rw [hp] at hh; cases hh
      | saniOnlyIfDifferent | unchecked =>
        have hsame : (v.charset.getD (F.charset S)).name = (F.charset T).name := by
          by_contra hne
          unfold StringVal.how at hh
          have hc : (compareCharsets (v.charset.getD (F.charset S)) (F.charset T)).same = false := by
            cases hc : (compareCharsets (v.charset.getD (F.charset S)) (F.charset T)).same with
            | false => rfl
            | true => exact absurd (compare_same hc) hne
          obtain ⟨_, _, p3, p4, _⟩ := Print.policy_choice (decide (S = T)) (compareCharsets (v.charset.getD (F.charset S)) (F.charset T))
          rw [hp] at hh
          first
          | (rw [p3, hc] at hh; cases hh)
          | (rw [p4 hc] at hh; cases hh)
        rcases hw with g | g | g | g | g | ⟨g, g1, g2⟩
        · rw [hsame, g]
        · rw [← hv.policy, hp] at g; cases g
        · exact absurd hsame g
        · exact g.symm
        · exact absurd g hfast
        · rw [← hv.policy, hp] at g
          first
          | exact absurd g (by decide)
          | (unfold StringVal.how compareCharsets at hh
             rw [hp, if_pos ⟨g1, g2⟩, if_pos (congrArg _ hsame)] at hh
             cases hh)

/-- the other strings are copied, and their width is that in the facet -/
theorem copied_elsewhere (S T : CharT) (F : StringFacets) (cs : List StringCall) (v : StringVal) (hv : SStateOf cs v)
    (hcomp : v.compiles F S T = true) (hw : ¬WidthCharsetOk F S T cs) :
    v.how F S T = .copyOther ∧ (charsetOf (F.charset S) cs).name = (F.charset T).name ∧
      (policyOf cs = .saniOnlyIfDifferent ∨ policyOf cs = .unchecked) := by
  have hcs := hv.charset (F.charset S)
  unfold WidthCharsetOk at hw
  simp only [not_or, not_and] at hw
  obtain ⟨hST, w2, w3, w4, w5, w6⟩ := hw
  have hname : (charsetOf (F.charset S) cs).name = (F.charset T).name := not_not.mp w3
  refine ⟨?_, hname, ?_⟩
  · unfold StringVal.compiles at hcomp
    rw [hcs] at hcomp
    unfold StringVal.how
    rw [hcs]
    rw [← hv.policy] at w2 w6
    have hd : decide (S = T) = false := decide_eq_false hST
    cases hp : v.policy with
    | noTranscode => rw [hp] at hcomp; exact absurd (of_decide_eq_true hcomp) hST
    | saniUnconditionally => exact absurd hp w2
    | saniOnlyIfDifferent =>
      unfold compareCharsets
      rw [if_pos (congrArg CsName.id hname), if_pos (congrArg CsName.unitSize hname), hd, hname]
      split <;> simp [choose]
    | unchecked =>
      have hns := w6 hp
      unfold compareCharsets
      rw [if_neg (by rintro ⟨a, b⟩; exact hns a b), if_pos (by rw [hname]), hd, hname]
      simp [choose]
  · rw [← hv.policy]
    rw [← hv.policy] at w2
    unfold StringVal.compiles at hcomp
    cases hp : v.policy with
    | noTranscode => rw [hp] at hcomp; exact absurd (of_decide_eq_true hcomp) hST
    | saniUnconditionally => exact absurd hp w2
    | saniOnlyIfDifferent => exact .inl rfl
    | unchecked => exact .inr rfl

/-! ### the items -/

theorem Item.Means.weaken {B : Int} {it : Item σ} {m m' : Meaning} (h : it.Means τ D Rep B m) (ht : m'.text = m.text)
    (hw : m'.width = m.width) (hr : m.room ≤ m'.room) (hc : m.cost ≤ m'.cost) : it.Means τ D Rep B m' := by
  obtain ⟨h1, h2, h3, h4⟩ := h
  refine ⟨by omega, by omega, by omega, fun p hp => ?_⟩
  obtain ⟨p', pr, e, hpr, g1, g2, g3⟩ := h4 p (hp.mono hr hc)
  rw [ht, hw]
  refine ⟨p', pr, e, hpr, g1, g2, fun a ha => ?_⟩
  obtain ⟨a', k1, k2, k3, k4, k5, k6, k7⟩ := g3 a ha
  exact ⟨a', k1, k2, k3, k4, by omega, k6, k7⟩

theorem padded_zero (enc : Nat → List Nat) (a : AlignFmt) (t : List Nat) : padded enc a 0 t = t := by
  unfold padded
  have : IntPrinter.Spec.before a.align 0 = 0 := by cases a.align <;> rfl
  rw [this]
  simp [IntPrinter.Spec.times]

theorem stringItem_means (L : Lawful D Rep) (C : Charset σ) (HC : C.Lawful D Rep) (c : Calc) (how : How) (signed same : Bool) (s d : Cs)
    (hsame : same = true → s = d) (B : Int) (al : Option AlignFmt) (ha : CInt.InI32 (al.getD AlignFmt.dflt).width)
    (precision : Option Int) (hp : ∀ p, precision = some p → p ≤ wmax ∧ c ≠ .std) (src : List Nat) (hc : c.Ok s src) :
    ∃ x, (∃ k, x = src.take k) ∧ KeptOf c s precision src x ∧
      (how.Ok s d x → (how.text s d x).length < ssizeMax →
      ∀ n, FillCount (al.getD AlignFmt.dflt).width (c.columns s x * 65536) n →
      (stringItem C (c.on signed s) (how.content D signed same s d) how al precision src).Means τ D Rep B
        (stringMeaning C.encodeChar (al.getD AlignFmt.dflt) precision.isSome n (how.text s d x) (c.columns s x * 65536))) := by
  cases precision with
  | none =>
    refine ⟨src, ⟨src.length, by simp⟩, rfl, fun hh hlen n hn => ?_⟩
    cases al with
    | none =>
      have hn0 : n = 0 := (Print.fillCount_unique hn).2 (by simp [AlignFmt.dflt])
      subst hn0
      refine Item.Means.weaken (Print.string_exact (C := C) L c how signed same s d hsame B src hc hh hlen) ?_ ?_ ?_ ?_ <;>
        simp only [stringMeaning, Option.getD_none, AlignFmt.dflt, padded_zero, Option.isSome_none, Bool.false_eq_true, if_false] <;> omega
    | some a =>
      refine Item.Means.weaken (Print.aligned_string_exact L HC c how signed same s d hsame B a ha src hc hh hlen n hn) rfl rfl ?_ ?_ <;>
        simp only [stringMeaning, Meaning.aligned, Option.getD_some, Option.isSome_none, Bool.false_eq_true, if_false] <;> omega
  | some p =>
    obtain ⟨hp1, hp2⟩ := hp p rfl
    obtain ⟨x, h1, _, h3⟩ := Print.precise_string_exact L HC c hp2 how signed same s d hsame B al
      (by intro a' e; rw [e] at ha; exact ha) p hp1 src hc
    refine ⟨x, ?_, h1, fun hh hlen n hn => ?_⟩
    · have := h1.1
      unfold Calc.Beginning at this
      cases c <;> dsimp only at this
      · obtain ⟨k, _, e⟩ := this; exact ⟨k, e⟩
      all_goals
        obtain ⟨k, _, e⟩ := this; exact ⟨_, e⟩
    · refine Item.Means.weaken (h3 hh hlen n (by intro a' e; rw [e] at hn; exact hn)) ?_ ?_ ?_ ?_
      all_goals
        cases al with
        | none =>
          have hn0 : n = 0 := (Print.fillCount_unique hn).2 (by simp [AlignFmt.dflt])
          subst hn0
          simp only [stringMeaning, preciseMeaning, Option.getD_none, AlignFmt.dflt, padded_zero, Option.isSome_some, if_true] <;> omega
        | some a =>
          simp only [stringMeaning, preciseMeaning, Option.getD_some, Option.isSome_some, if_true] <;> omega

/-- C69 (part): a string with format functions, in any order and number. It is printed as asked: what is kept of it (all, or
the longest beginning that fits the precision given last), read with the charset given last (or the facet for its
character type), in the charset of the destination, sanitised or not as the last of transcode, sani and unsafe_transcode says, with
as many fill characters as are missing to the width of the alignment. The size reported is the number of code units, and the width that of
the string and the fill characters. `F` are any facets, `S` and `T` any character types.

Missing: precision with std_width_calc (`Print.std_precise_string_wrong`), and a charset given that is that of the destination
whose character type is another (`charset_width_wrong`). -/
theorem string_chain_exact_partial (L : Lawful D Rep) (B : Int) (F : StringFacets) (S T : CharT)
    (hF : ∀ U, (F.charset U).name.unitSize = U.size) (signed : Bool) (cs : List StringCall) (src : List Nat) (hu : S.Units src)
    (hgiven : (charsetOf (F.charset S) cs).name.unitSize = S.size)
    (hcalc : F.widthCalc = .fastU32len → (charsetOf (F.charset S) cs).name.cs.WellFormed src)
    (hstd : F.widthCalc = .std → precisionOf cs = none)
    (hp : ∀ p, precisionOf cs = some p → p ≤ wmax) (ha : CInt.InI32 (stringAlign cs).width)
    (hwc : WidthCharsetOk F S T cs) (it : Item σ) (hit : (stringChain cs).item D F S T signed src = some it) :
    ∃ x, KeptOf F.widthCalc (charsetOf (F.charset S) cs).name.cs (precisionOf cs) src x ∧
      ((policyOf cs = .unchecked → (charsetOf (F.charset S) cs).name.cs.WellFormed x) →
      (textOf (policyOf cs) (charsetOf (F.charset S) cs).name (F.charset T).name x).length < ssizeMax →
      ∀ n, FillCount (stringAlign cs).width (F.widthCalc.columns (charsetOf (F.charset S) cs).name.cs x * 65536) n →
      it.Means τ D Rep B (stringMeaning ((F.charset T).name.charset D).encodeChar (stringAlign cs) (precisionOf cs).isSome n
        (textOf (policyOf cs) (charsetOf (F.charset S) cs).name (F.charset T).name x)
        (F.widthCalc.columns (charsetOf (F.charset S) cs).name.cs x * 65536))) := by
  have hv := string_chain_state cs
  generalize hvv : stringChain cs = v at *
  have hcs := hv.charset (F.charset S)
  unfold StringVal.item at hit
  split_ifs at hit with hcomp
  simp only [Option.some.injEq] at hit
  have hwidth := width_charset S T F signed cs v hv hcomp hwc
  rw [hwidth] at hit
  have hU : (charsetOf (F.charset S) cs).name.cs.Units src := cs_units hgiven hu
  obtain ⟨x, ⟨k, hk⟩, h1, h2⟩ := stringItem_means (D := D) (Rep := Rep) L ((F.charset T).name.charset D) (charset_lawful L _) F.widthCalc (v.how F S T)
    signed (decide ((v.charset.getD (F.charset S)).name.id = (F.charset T).name.id)) (charsetOf (F.charset S) cs).name.cs
    (F.charset T).name.cs (by rw [hcs]; intro h; exact congrArg CsName.cs (id_injective (of_decide_eq_true h))) B v.align (by rw [hv.align]; exact ha)
    v.precision (by intro p e; rw [hv.precision] at e; exact ⟨hp p e, fun g => by rw [hstd g] at e; cases e⟩) src ⟨hU, hcalc⟩
  rw [hcs] at hit h2
  rw [hit, hv.precision, hv.align] at h2
  rw [hv.precision] at h1
  refine ⟨x, h1, fun hwf hlen n hn => ?_⟩
  have hUx : (charsetOf (F.charset S) cs).name.cs.Units x := by rw [hk]; exact hU.take k
  have hwf' : v.policy = .unchecked → (v.charset.getD (F.charset S)).name.cs.WellFormed x := by
    rw [hv.policy, hcs]; exact hwf
  have ht := how_text S T F v x hwf'
  have hok := how_ok S T F (hF T) v x (by rw [hcs]; exact hUx) hwf'
  rw [hcs] at ht hok
  rw [hv.policy] at ht
  rw [ht] at h2
  exact h2 hok hlen n hn

/-! ### cases -/

/-- Windows-1252 for `char`, UTF-8, UTF-16 and UTF-32 for the others; width_as_u32len -/
def someFacets : StringFacets :=
  ⟨fun T => match T with
    | .char => ⟨.sbc 18, true⟩
    | .char8 => ⟨.utf .utf8, true⟩
    | .char16 => ⟨.utf .utf16, true⟩
    | .char32 => ⟨.utf .utf32, true⟩
    | .wchar four => if four then ⟨.utf .utf32, true⟩ else ⟨.utf .utf16, true⟩, .u32len⟩

/-- what a string with format functions prints through `strf::to_string` -/
def stringPrinted (F : StringFacets) (S T : CharT) (cs : List StringCall) (src : List Nat) : Option (List Nat) :=
  ((stringChain cs).item Dest.Maker.dest F S T false src).bind Print.printed

/-- C69 fails when the charset given is that of the destination but the character types are not the same:
`to_u8string.with(windows_1252<char>)(right(fmt("\xC3\xA9").transcode(utf8<char>), 3))` is the character U+00E9, which takes
one column, but one fill character is printed instead of two, because its width is calculated in Windows-1252. -/
theorem charset_width_wrong :
    stringPrinted someFacets .char .char8 [.transcode (some ⟨.utf .utf8, true⟩), .align (.right 196608)] [0xC3, 0xA9] =
      some [0x20, 0xC3, 0xA9] ∧
    someFacets.widthCalc.columns (CsName.utf .utf8).cs [0xC3, 0xA9] = 1 ∧ FillCount 196608 65536 2 ∧
    ¬ WidthCharsetOk someFacets .char .char8 [.transcode (some ⟨.utf .utf8, true⟩), .align (.right 196608)] := by
  refine ⟨by decide +kernel, by decide +kernel, by decide +kernel, by unfold WidthCharsetOk; decide⟩

/-- `to_u8string.with(windows_1252<char>)(fmt("\xE9\xE8\xE7").p(5).sani().fill('.').p(2) < 4)` -/
example : stringPrinted someFacets .char .char8 [.p 327680, .sani none, .align (.fill 0x2E), .p 131072, .align (.left 262144)]
    [0xE9, 0xE8, 0xE7] = some [0xC3, 0xA9, 0xC3, 0xA8, 0x2E, 0x2E] := by decide +kernel

/-- the theorem applies to it -/
example : (∀ U, (someFacets.charset U).name.unitSize = U.size) ∧ CharT.char.Units [0xE9, 0xE8, 0xE7] ∧
    WidthCharsetOk someFacets .char .char8 [.p 327680, .sani none, .align (.fill 0x2E), .p 131072, .align (.left 262144)] ∧
    CInt.InI32 (stringAlign [.p 327680, .sani none, .align (.fill 0x2E), .p 131072, .align (.left 262144)]).width ∧
    ((stringChain [.p 327680, .sani none, .align (.fill 0x2E), .p 131072, .align (.left 262144)]).item Dest.Maker.dest someFacets .char .char8
      false [0xE9, 0xE8, 0xE7]).isSome ∧ FillCount 262144 (2 * 65536) 2 := by
  refine ⟨?_, by decide, .inr (.inl rfl), by decide, by decide, by decide +kernel⟩
  intro U
  rcases U with _ | _ | _ | _ | _ | _ <;> rfl

/-- transcoding to the charset of the string itself leaves it as it is, also if it is ill-formed -/
example : stringPrinted someFacets .char8 .char8 [.transcode none] [0x61, 0xFF] = some [0x61, 0xFF] ∧
    stringPrinted someFacets .char8 .char8 [.sani none] [0x61, 0xFF] = some [0x61, 0xEF, 0xBF, 0xBD] := by decide +kernel

end Strf.Format

import Verif.Program.Model
/-!
# C73: a whole call prints what its arguments mean
-/
namespace Strf.Program
open Strf.Format
open Strf.IntPrinter (AlignFmt)
open Strf.IntDigits.Spec (Lettercase)
open Strf.Print (Item Charset Meaning Calc Cs AllMean total)
open Strf.Float (FloatT)
open Strf.Dest (Dest Lawful)
open Strf.Facets (writtenAll applicable InForce)
open Strf.Width (wmax)

variable {σ : Type} {D : Dest Nat σ} {Rep : σ → List Nat → Prop} {T : CharT} {K : CharT → CharsetArg} {sg : CharT → Bool}

/-! ### the facets in force -/

theorem Holds.get {fp : Pack} {tag : Tag} {v : FacetArg} (h : Holds fp tag v) : Facets.getFacet dflt v.cat tag fp = v :=
  InForce.unique (Facets.get_facet_exact dflt v.cat tag fp) h

theorem Holds.congr {fp fp' : Pack} {tag : Tag} {v : FacetArg} (h : Holds fp tag v) (e : writtenAll fp' = writtenAll fp) :
    Holds fp' tag v := by
  unfold Holds InForce at *
  rw [e]; exact h

theorem Holds.charset {fp : Pack} {tag : Tag} {c : CharsetArg} {U : CharT} (h : Holds fp tag (.charset U c)) : theCharset fp tag U = c := by
  unfold theCharset
  rw [show Cat.charset U = (FacetArg.charset U c).cat from rfl, h.get]

theorem Holds.calc {fp : Pack} {tag : Tag} {c : Calc} (h : Holds fp tag (.widthCalc c)) : theCalc fp tag = c := by
  unfold theCalc
  rw [show Cat.widthCalc = (FacetArg.widthCalc c).cat from rfl, h.get]

theorem Holds.numpunct {fp : Pack} {tag : Tag} {b : Nat} {np : Numpunct.Facet} (h : Holds fp tag (.numpunct b np)) :
    theNumpunct fp tag b = np := by
  unfold theNumpunct
  rw [show Cat.numpunct b = (FacetArg.numpunct b np).cat from rfl, h.get]

theorem Holds.lettercase {fp : Pack} {tag : Tag} {lc : Lettercase} (h : Holds fp tag (.lettercase lc)) : theCase fp tag = lc := by
  unfold theCase
  rw [show Cat.lettercase = (FacetArg.lettercase lc).cat from rfl, h.get]

theorem Holds.notifier {fp : Pack} {tag : Tag} {k : Option Nat} (h : Holds fp tag (.notifier k)) : theNotifier fp tag = k := by
  unfold theNotifier
  rw [show Cat.notifier = (FacetArg.notifier k).cat from rfl, h.get]

theorem Holds.trNotifier {fp : Pack} {tag : Tag} {k : Option Nat} (h : Holds fp tag (.trNotifier k)) : theTrNotifier fp tag = k := by
  unfold theTrNotifier
  rw [show Cat.trNotifier = (FacetArg.trNotifier k).cat from rfl, h.get]

theorem CharsetsAre.fn {fp : Pack} (h : CharsetsAre fp K) (tag : Tag) : theCharset fp tag = K := by
  funext U; exact (h tag U).charset

theorem CharsetsAre.congr {fp fp' : Pack} (h : CharsetsAre fp K) (e : writtenAll fp' = writtenAll fp) : CharsetsAre fp' K :=
  fun tag U => (h tag U).congr e

mutual
/-- a well typed constrainable element has no charset -/
theorem no_charset : (e : Facets.Fpe Cat Tag FacetArg) → Typed e → constrainable e = true → ∀ x ∈ e.written, ∀ U, x.1 ≠ .charset U
  | .facet c v, h, k => by
    intro x hx U
    simp only [Facets.Fpe.written, List.mem_singleton] at hx
    subst hx
    unfold Typed at h
    unfold constrainable at k
    rw [← h.1]
    cases v with
    | charset => cases k
    | _ => intro g; cases g
  | .constrained f e, h, _ => by
    intro x hx U
    unfold Typed at h
    simp only [Facets.Fpe.written, List.mem_map] at hx
    obtain ⟨y, hy, rfl⟩ := hx
    exact no_charset e h.2 h.1 y hy U
  | .ref e, h, k => by
    unfold Typed at h
    unfold constrainable at k
    unfold Facets.Fpe.written
    exact no_charset e h k
  | .pack es, h, k => by
    unfold Typed at h
    unfold constrainable at k
    unfold Facets.Fpe.written
    exact no_charsets es h k
theorem no_charsets : (es : Pack) → AllTyped es → allConstrainable es = true → ∀ x ∈ writtenAll es, ∀ U, x.1 ≠ .charset U
  | [], _, _ => by intro x hx; simp [writtenAll] at hx
  | e :: es, h, k => by
    unfold AllTyped at h
    unfold allConstrainable at k
    rw [Bool.and_eq_true] at k
    intro x hx
    unfold writtenAll at hx
    rcases List.mem_append.mp hx with hx | hx
    · exact no_charset e h.1 k.1 x hx
    · exact no_charsets es h.2 k.2 x hx
end

mutual
/-- A charset that is written applies to all types, and its code units have the size of the character type. -/
theorem charset_written : (e : Facets.Fpe Cat Tag FacetArg) → Typed e → ∀ x ∈ e.written, ∀ U, x.1 = .charset U →
    (∀ tag, x.2.1 tag = true) ∧ ∃ c, x.2.2 = .charset U c ∧ c.name.unitSize = U.size
  | .facet c v, h => by
    intro x hx U e
    simp only [Facets.Fpe.written, List.mem_singleton] at hx
    subst hx
    unfold Typed at h
    refine ⟨fun _ => rfl, ?_⟩
    obtain ⟨h1, h2⟩ := h
    rw [show c = Cat.charset U from e] at h1
    cases v with
    | charset V d =>
      simp only [FacetArg.cat, Cat.charset.injEq] at h1
      subst h1
      exact ⟨d, rfl, h2⟩
    | _ => cases h1
  | .constrained f e, h => by
    intro x hx U k
    unfold Typed at h
    simp only [Facets.Fpe.written, List.mem_map] at hx
    obtain ⟨y, hy, rfl⟩ := hx
    exact absurd k (no_charset e h.2 h.1 y hy U)
  | .ref e, h => by
    unfold Typed at h
    unfold Facets.Fpe.written
    exact charset_written e h
  | .pack es, h => by
    unfold Typed at h
    unfold Facets.Fpe.written
    exact charsets_written es h
theorem charsets_written : (es : Pack) → AllTyped es → ∀ x ∈ writtenAll es, ∀ U, x.1 = .charset U →
    (∀ tag, x.2.1 tag = true) ∧ ∃ c, x.2.2 = .charset U c ∧ c.name.unitSize = U.size
  | [], _ => by intro x hx; simp [writtenAll] at hx
  | e :: es, h => by
    unfold AllTyped at h
    intro x hx
    unfold writtenAll at hx
    rcases List.mem_append.mp hx with hx | hx
    · exact charset_written e h.1 x hx
    · exact charsets_written es h.2 x hx
end

theorem utfOf_size (U : CharT) : (utfOf U).unitSize = U.size := by rcases U with _ | _ | _ | _ | _ | _ <;> rfl

/-- C73: each character type has one charset in a call, the same for all the arguments. -/
theorem charsets_exist (fp : Pack) (h : AllTyped fp) : ∃ K, CharsetsAre fp K ∧ ∀ U, (K U).name.unitSize = U.size := by
  have key : ∀ U, ∃ c : CharsetArg, (∀ tag, Holds fp tag (.charset U c)) ∧ c.name.unitSize = U.size := by
    intro U
    have hall : ∀ tag, applicable (.charset U) tag (writtenAll fp) =
        ((writtenAll fp).filter fun x => decide (x.1 = .charset U)).map fun x => x.2.2 := by
      intro tag
      unfold applicable
      congr 1
      apply List.filter_congr
      intro x hx
      by_cases e : x.1 = .charset U
      · simp [e, (charsets_written fp h x hx U e).1 tag]
      · simp [e]
    cases hl : ((writtenAll fp).filter fun x => decide (x.1 = .charset U)).getLast? with
    | none =>
      refine ⟨⟨utfOf U, true⟩, fun tag => .inr ⟨?_, rfl⟩, utfOf_size U⟩
      rw [show (FacetArg.charset U ⟨utfOf U, true⟩).cat = .charset U from rfl, hall, List.getLast?_eq_none_iff.mp hl]
      rfl
    | some x =>
      obtain ⟨l, hl⟩ := List.getLast?_eq_some_iff.mp hl
      have hx : x ∈ (writtenAll fp).filter fun x => decide (x.1 = .charset U) := by rw [hl]; simp
      obtain ⟨hm, he⟩ := List.mem_filter.mp hx
      obtain ⟨_, c, hc, hs⟩ := charsets_written fp h x hm U (by simpa using he)
      refine ⟨c, fun tag => .inl ⟨l.map fun x => x.2.2, ?_⟩, hs⟩
      rw [show (FacetArg.charset U c).cat = .charset U from rfl, hall, hl]
      simp [hc]
  refine ⟨fun U => (key U).choose, fun tag U => (key U).choose_spec.1 tag, fun U => (key U).choose_spec.2⟩

theorem CharsetsAre.append {fp fs : Pack} (h : CharsetsAre fp K) (h1 : AllTyped fs) (h2 : allConstrainable fs = true) :
    CharsetsAre (fp ++ fs) K := by
  intro tag U
  have := h tag U
  unfold Holds InForce at *
  have e : applicable (FacetArg.charset U (K U)).cat tag (writtenAll fs) = [] := by
    unfold applicable
    rw [List.map_eq_nil_iff, List.filter_eq_nil_iff]
    intro x hx
    have := no_charsets fs h1 h2 x hx U
    simp [FacetArg.cat, this]
  rw [Facets.writtenAll_append, Facets.applicable_append, e, List.append_nil]
  exact this

/-! ### what is kept of a string -/

theorem kept_unique {c : Calc} {s : Cs} {p : Option Int} {src x y : List Nat} (hc : c.Ok s src) (hstd : c = .std → p = none)
    (hx : KeptOf c s p src x) (hy : KeptOf c s p src y) : x = y := by
  cases p with
  | none => exact hx.trans hy.symm
  | some p =>
    have hne : c ≠ .std := fun g => by cases hstd g
    have take : ∀ z, c.Beginning s src z → ∃ k, z = src.take k := by
      intro z hz
      cases c <;> simp only [Print.Calc.Beginning] at hz <;> obtain ⟨n, _, e⟩ := hz <;> exact ⟨_, e⟩
    have zero : ∀ z, c.Beginning s src z → c.columns s z = 0 → z = [] := by
      intro z hz h0
      cases c with
      | std => exact absurd rfl hne
      | fast => exact List.length_eq_zero_iff.mp h0
      | u32len =>
        obtain ⟨n, h1, e⟩ := hz
        simp only [Print.Calc.columns] at h0
        rw [e, s.read_take src hc.1, List.length_take, Nat.min_eq_left h1] at h0
        rw [e, h0]; simp [WidthCalc.ext]
      | fastU32len =>
        obtain ⟨n, h1, e⟩ := hz
        simp only [Print.Calc.columns] at h0
        rw [e, s.read_take src hc.1, List.length_take, Nat.min_eq_left h1] at h0
        rw [e, h0]; simp [WidthCalc.ext]
    have len : x.length = y.length := by
      obtain ⟨b1, w1, l1⟩ := hx
      obtain ⟨b2, w2, l2⟩ := hy
      rcases Nat.lt_trichotomy x.length y.length with h | h | h
      · have := l1 y b2 h
        have h0 : c.columns s y = 0 := by omega
        rw [zero y b2 h0] at h; simp at h
      · exact h
      · have := l2 x b1 h
        have h0 : c.columns s x = 0 := by omega
        rw [zero x b1 h0] at h; simp at h
    obtain ⟨k, rfl⟩ := take x hx.1
    obtain ⟨j, rfl⟩ := take y hy.1
    simp only [List.length_take] at len
    by_cases hk : k ≤ src.length <;> by_cases hj : j ≤ src.length
    · rw [show k = j by omega]
    · rw [show k = src.length by omega, List.take_of_length_le (by omega), List.take_of_length_le (by omega)]
    · rw [show j = src.length by omega, List.take_of_length_le (by omega), List.take_of_length_le (by omega)]
    · rw [List.take_of_length_le (by omega), List.take_of_length_le (by omega)]

/-! ### the arguments -/

/-- what a charset does that does not depend on the destination -/
theorem enc_eq (D : Dest Nat σ) (n : CsName) : (n.charset D).encodeChar = (ref n).encodeChar := by cases n <;> rfl
theorem enc_of (D : Dest Nat σ) (T : CharT) (K : CharT → CharsetArg) : ((K T).name.charset D).encodeChar = enc T K := enc_eq D _
theorem validate_eq (D : Dest Nat σ) (n : CsName) : (n.charset D).validate = (ref n).validate := by cases n <;> rfl
theorem usedGroups_eq (D : Dest Nat σ) (n : CsName) : Float.usedGroups (n.charset D) = Float.usedGroups (ref n) := by
  funext np f gs rep
  unfold Float.usedGroups
  rw [validate_eq]
theorem castOk_eq (D : Dest Nat σ) (n : CsName) : Float.CastOk (n.charset D) = Float.CastOk (ref n) := by
  funext u s
  unfold Float.CastOk
  rw [validate_eq, enc_eq]
theorem sepOk_eq (D : Dest Nat σ) (n : CsName) : IntPrinter.SepOk (n.charset D) = IntPrinter.SepOk (ref n) := by
  funext u s
  unfold IntPrinter.SepOk
  rw [validate_eq]

theorem tuple_means (L : Lawful D Rep) {B : Int} {its : List (Item σ)} {ms : List Meaning} (h : AllMean τ D Rep B its ms) :
    (tuple D its).Means τ D Rep B (total ms) := by
  refine ⟨h.nonneg.1, h.nonneg.2.1, h.nonneg.2.2, ?_⟩
  intro p hp
  obtain ⟨p', prs, e, hpr, g⟩ := h.make L p hp
  unfold tuple
  dsimp only
  rw [e]
  exact ⟨p', _, rfl, hpr, g⟩

mutual
/-- C73: an argument of any type with any format functions compiles, and its printer prints what it means. -/
theorem arg_exact (L : Lawful D Rep) (hK : ∀ U, (K U).name.unitSize = U.size) : {fp : Pack} → {B : Int} → {arg : Arg} → {m : Meaning} →
    Denotes T K fp B arg m → CharsetsAre fp K → ∀ fp', writtenAll fp' = writtenAll fp →
      ∃ it, arg.item D T sg fp' = some it ∧ it.Means τ D Rep B m
  | fp, B, _, _, .int lay lc np gs rep hl hlc hnp ok, hch, fp', e => by
    obtain ⟨v, hv⟩ := Option.isSome_iff_exists.mp ok.compiles
    refine ⟨_, by unfold Arg.item; rw [hv]; rfl, ?_⟩
    dsimp only
    rw [(hch.congr e).fn, (hlc.congr e).lettercase]
    have hn := (hnp.congr e).numpunct
    have := int_chain_exact_partial (τ := τ) (D := D) (Rep := Rep) L (charset_lawful L (K T).name) B _ v hv ok.keeps ok.sign ok.precision ok.pad0 lay hl.fill hl.align
      hl.range hl.columns lc (fun b => ⟨(theNumpunct fp' (.int _) b).grouping, (theNumpunct fp' (.int _) b).thousandsSep⟩) gs rep
      ok.valid (by dsimp only; rw [hn]; exact ok.grouping) _ ok.value (by dsimp only; rw [hn, sepOk_eq]; exact ok.sep)
      (by dsimp only; rw [hn, enc_of]; exact ok.bin)
    dsimp only at this
    rw [hn, enc_of] at this
    exact this
  | fp, B, _, _, @Denotes.float _ _ _ _ F cs bits lay lc np np16 gs rep hl hlc hlc0 h10 h16 ok, hch, fp', e => by
    refine ⟨_, by unfold Arg.item; rfl, ?_⟩
    rw [(hch.congr e).fn, (h10.congr e).numpunct, (h16.congr e).numpunct]
    have := float_chain_exact_partial (τ := τ) (D := D) (Rep := Rep) L (charset_lawful L (K T).name) B (8 * T.size) _ _ rfl lay hl.fill hl.align hl.range hl.columns
      ⟨fun F' => theCase fp' (.float F'), np, np16⟩ gs rep ok.valid ok.grouping (by rw [castOk_eq]; exact ok.cast) F bits
      (fun g => by dsimp only; rw [(hlc.congr e).lettercase, ((hlc0 g).congr e).lettercase]) (by rw [usedGroups_eq]; exact ok.round)
    dsimp only at this
    rw [(hlc.congr e).lettercase, enc_of, usedGroups_eq] at this
    exact this
  | fp, B, _, _, .str wc x n hwc ok hn, hch, fp', e => by
    unfold Arg.item
    rw [(hch.congr e).fn, (hwc.congr e).calc]
    have hcomp := ok.compiles
    unfold stringFacets at hcomp
    refine ⟨_, by unfold StringVal.item; rw [if_pos hcomp], ?_⟩
    obtain ⟨y, hy, hm⟩ := string_chain_exact_partial (D := D) (Rep := Rep) L B ⟨K, wc⟩ _ T hK _ _ _ ok.units ok.given ok.fast ok.std ok.precision ok.align
      ok.charset _ (by unfold StringVal.item; rw [if_pos hcomp])
    have hxy := kept_unique (c := wc) ⟨cs_units ok.given ok.units, ok.fast⟩ ok.std ok.kept hy
    subst hxy
    have := hm ok.wellFormed ok.size n hn
    dsimp only at this
    rw [enc_of] at this
    exact this
  | fp, B, _, _, @Denotes.rawChr _ _ _ _ S u wc hwc hS hu, hch, fp', e => by
    have he : ∀ F : StringFacets, S = T ∨ S = .char32 → ∃ it, rawCharItem D F S T (sg S) u = some it := by
      intro F h
      unfold rawCharItem
      by_cases h1 : S = T
      · exact ⟨_, if_pos h1⟩
      · exact ⟨_, by rw [if_neg h1, if_pos (h.resolve_left h1)]⟩
    obtain ⟨it, hit⟩ := he ⟨K, wc⟩ hS
    refine ⟨it, ?_, by have := raw_char_exact (τ := τ) (D := D) (Rep := Rep) L B ⟨K, wc⟩ hK S T (sg S) u hu it hit; dsimp only at this; rw [enc_of] at this; exact this⟩
    unfold Arg.item
    rw [(hch.congr e).fn, (hch.congr e).fn]
    by_cases h1 : S = T
    · subst h1
      rw [if_pos rfl, (hwc.congr e).calc]
      exact hit
    · have h32 := hS.resolve_left h1
      subst h32
      rw [if_neg h1, (hwc.congr e).calc]
      exact hit
  | fp, B, _, _, @Denotes.chr _ _ _ _ S cs u wc n hwc hS hu hc ha hn, hch, fp', e => by
    refine ⟨(charChain cs).item D ⟨K, wc⟩ S T (sg S) (sg T) u, ?_, by have := char_chain_exact_partial (τ := τ) (D := D) (Rep := Rep) L B ⟨K, wc⟩ hK S T hS (sg S) (sg T) cs u hu hc ha n hn; dsimp only at this; rw [enc_of] at this; exact this⟩
    unfold Arg.item
    rw [(hch.congr e).fn, (hch.congr e).fn]
    by_cases h1 : S = T
    · subst h1
      rw [if_neg (fun g => g.2 g.1), (hwc.congr e).calc]
    · have h32 := hS.resolve_left h1
      subst h32
      rw [if_pos ⟨rfl, fun g => h1 g.symm⟩, (hwc.congr e).calc]
  | fp, B, _, _, .rawBool lc hlc, hch, fp', e => by
    refine ⟨_, by unfold Arg.item; rfl, ?_⟩
    rw [(hch.congr e).fn, (hlc.congr e).lettercase]
    exact Print.boolItem_means L B lc _
  | fp, B, _, _, .bool lay lc n hl hlc hn, hch, fp', e => by
    refine ⟨_, by unfold Arg.item; rfl, ?_⟩
    rw [(hch.congr e).fn, (hlc.congr e).lettercase]
    rw [← enc_of D]
    exact (bool_chain_exact L (charset_lawful L (K T).name) B lc _ hl.range lay.columns hl.columns _ n hn).2
  | fp, B, _, _, .ptr lay lc n hl hlc ha hn, hch, fp', e => by
    unfold Arg.item
    rw [(hch.congr e).fn, (hlc.congr e).lettercase]
    subst hn
    rw [← enc_of D]
    exact pointer_exact L (charset_lawful L (K T).name) B lc _ _ hl.range lay.columns hl.columns _ ha
  | fp, B, _, _, .join h, hch, fp', e => by
    obtain ⟨its, hi, hm⟩ := args_exact L hK h hch fp' e
    refine ⟨_, by unfold Arg.item; rw [hi]; rfl, Print.join_means L hm⟩
  | fp, B, _, _, .alignedJoin n h0 h1 h h2 h3 h4 h5, hch, fp', e => by
    obtain ⟨its, hi, hm⟩ := args_exact L hK h hch fp' e
    refine ⟨_, by unfold Arg.item; rw [hi]; rfl, ?_⟩
    rw [(hch.congr e).fn]
    rw [← enc_of D]
    exact Print.alignedJoin_means L (charset_lawful L (K T).name) _ n h0 h1 hm h2 h3 h4 h5
  | fp, B, _, _, .range h, hch, fp', e => by
    obtain ⟨its, hi, hm⟩ := args_exact L hK h hch fp' e
    exact ⟨_, by unfold Arg.item; rw [hi]; rfl, Print.range_means L hm⟩
  | fp, B, _, _, @Denotes.separatedRange _ _ _ _ fmt sep args ms wc hwc hu hf hlen h, hch, fp', e => by
    obtain ⟨its, hi, hm⟩ := args_exact L hK h hch fp' e
    refine ⟨_, by unfold Arg.item; rw [hi]; rfl, ?_⟩
    dsimp only
    rw [(hch.congr e).fn, (hwc.congr e).calc]
    have := Print.separated_means (D := D) (Rep := Rep) L (wc.measures (sg T) (K T).name.cs) (sep := sep) ⟨cs_units (hK T) hu, hf⟩ hm hlen
    cases fmt
    · exact this.1
    · exact this.2
  | fp, B, _, _, .tr wc hwc hr hok h hroom, hch, fp', e => by
    obtain ⟨its, hi, hm⟩ := args_exact L hK h hch fp' e
    refine ⟨_, by unfold Arg.item; rw [hi]; rfl, ?_⟩
    dsimp only
    rw [(hch.congr e).fn, (hwc.congr e).calc]
    exact Print.tr_exact L (K T).name.cs wc (sg T) B hm hroom hr hok
  | fp, B, _, _, @Denotes.inner _ _ _ _ fs args ms h1 h2 h, hch, fp', e => by
    obtain ⟨its, hi, hm⟩ := args_exact L hK h (hch.append h1 h2) (Facets.childFacets fp' fs)
      (by rw [Facets.writtenAll_append]; simp [Facets.childFacets, writtenAll, Facets.Fpe.written, e])
    exact ⟨_, by unfold Arg.item; rw [if_pos h2, hi]; rfl, tuple_means L hm⟩
theorem args_exact (L : Lawful D Rep) (hK : ∀ U, (K U).name.unitSize = U.size) : {fp : Pack} → {B : Int} → {as : List Arg} → {ms : List Meaning} →
    DenoteAll T K fp B as ms → CharsetsAre fp K → ∀ fp', writtenAll fp' = writtenAll fp →
      ∃ its, items D T sg fp' as = some its ∧ AllMean τ D Rep B its ms
  | _, _, _, _, .nil, _, _, _ => ⟨[], by unfold items; rfl, .nil⟩
  | _, _, _, _, .cons h hs, hch, fp', e => by
    obtain ⟨it, hi, hm⟩ := arg_exact L hK h hch fp' e
    obtain ⟨its, his, hms⟩ := args_exact L hK hs hch fp' e
    exact ⟨it :: its, by unfold items; rw [hi, his]; rfl, .cons hm hms⟩
end

end Strf.Program

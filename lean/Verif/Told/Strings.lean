import Verif.Told.Model
import Verif.Transcode.NotesUnsafe
import Verif.Told.Spec
import Verif.Transcode.NotesProps
import Verif.Program.Props
/-!
# Strings: what is told of them while they are printed
-/
namespace Strf.Told
open Strf.Dest (Dest Lawful Prints After)
open Strf.Format
open Strf.IntPrinter (AlignFmt)
open Strf.Print (Item Cs Content How Charset Calc stringItem FillCount ssizeMax Policy WCalc Pre alignedMake alignedPrint)
open Strf.Charset (Event OnceOrTwice)
open Strf.Transcode (Marks Spared notes Mark invalids unsupporteds)
open Strf.Width (wmax)

variable {σ : Type} {D : Dest Nat σ} {Rep : σ → List Nat → Prop}

/-- The recording printer writes what the printer writes. -/
theorem logged_erases (S T : CharT) (signed : Bool) (s d : CharsetArg) (hs : s.name.unitSize = S.size) (hd : d.name.unitSize = T.size)
    (st : σ) (src : List Nat) :
    (How.transcode.content D signed (decide (s.name.id = d.name.id)) s.name.cs d.name.cs).write src st =
      (Transcode.transcodeDst D S T s d ⟨false, false, false⟩ st src).map (·.1) := by
  unfold Transcode.transcodeDst
  rw [Transcode.find_exact S T s d hs hd]
  obtain ⟨sn, ss⟩ := s
  obtain ⟨dn, ds⟩ := d
  dsimp only
  have dir : ∀ f : Charset.Func, ((Charset.transcodeTo D f st src).map fun p => (p.1, (⟨p.2.count, p.2.rest, 0, p.2.why, p.2.events⟩ : Charset.DERes))).map (·.1) =
      (Charset.transcodeTo D f st src).map (·.1) := by intro f; rw [Option.map_map]; rfl
  cases sn with
  | utf e =>
    cases dn with
    | utf e' =>
      simp only [Transcode.hasSpec, if_true]
      rw [dir]
      unfold How.content
      dsimp only [CsName.cs]
      by_cases h : (CsName.utf e).id = (CsName.utf e').id
      · have := id_injective h
        injection this with this
        subst this
        rw [if_pos (by simp)]
        rfl
      · rw [if_neg (by simpa using h)]
        rfl
    | sbc j =>
      have h : (CsName.utf e).id ≠ (CsName.sbc j).id := fun h => by cases id_injective h
      unfold How.content
      dsimp only [CsName.cs]
      rw [if_neg (by simpa using h)]
      cases e with
      | utf32 =>
        have h : Transcode.hasSpec (.utf .utf32) (.sbc j) = true := rfl
        rw [h, if_pos rfl]
        dsimp only
        rw [dir]; rfl
      | utf8 => rfl
      | utf16 => rfl
  | sbc i =>
    cases dn with
    | utf e =>
      have h : (CsName.sbc i).id ≠ (CsName.utf e).id := fun h => by cases id_injective h
      unfold How.content
      dsimp only [CsName.cs]
      rw [if_neg (by simpa using h)]
      cases e with
      | utf32 =>
        have h : Transcode.hasSpec (.sbc i) (.utf .utf32) = true := rfl
        rw [h, if_pos rfl]
        dsimp only
        rw [dir]; rfl
      | utf8 => rfl
      | utf16 => rfl
    | sbc j =>
      unfold How.content
      dsimp only [CsName.cs]
      by_cases h : (CsName.sbc i).id = (CsName.sbc j).id
      · have h1 := id_injective h
        injection h1 with h1
        subst h1
        have h2 : Transcode.hasSpec (.sbc i) (.sbc i) = true := by simp [Transcode.hasSpec]
        rw [h2, if_pos rfl, if_pos (by simp)]
        dsimp only
        rw [dir]; rfl
      · have h2 : Transcode.hasSpec (.sbc i) (.sbc j) = false := by
          simp only [Transcode.hasSpec, beq_eq_false_iff_ne, ne_eq]
          intro g; subst g; exact h rfl
        rw [h2, if_neg (fun g => h (of_decide_eq_true g)), if_neg Bool.false_ne_true]
        rfl

theorem unsafe_erases (S T : CharT) (signed : Bool) (s d : CharsetArg) (hs : s.name.unitSize = S.size) (hd : d.name.unitSize = T.size)
    (st : σ) (src : List Nat) :
    (How.unchecked.content D signed (decide (s.name.id = d.name.id)) s.name.cs d.name.cs).write src st =
      (Transcode.unsafeTranscodeDst D S T s d ⟨false, false, false⟩ st src).map (·.1) := by
  unfold Transcode.unsafeTranscodeDst
  rw [Transcode.find_exact S T s d hs hd]
  obtain ⟨sn, ss⟩ := s
  obtain ⟨dn, ds⟩ := d
  dsimp only
  have dir : ∀ f : Charset.Func, ((Charset.transcodeTo D f st src).map fun p => (p.1, (⟨p.2.count, p.2.rest, 0, p.2.why, p.2.events⟩ : Charset.DERes))).map (·.1) =
      (Charset.transcodeTo D f st src).map (·.1) := by intro f; rw [Option.map_map]; rfl
  cases sn with
  | utf e =>
    cases dn with
    | utf e' =>
      simp only [Transcode.hasSpec, if_true]
      rw [dir]
      unfold How.content
      dsimp only [CsName.cs]
      by_cases h : (CsName.utf e).id = (CsName.utf e').id
      · have := id_injective h
        injection this with this
        subst this
        rw [if_pos (by simp)]
        rfl
      · rw [if_neg (by simpa using h)]
        rfl
    | sbc j =>
      have h : (CsName.utf e).id ≠ (CsName.sbc j).id := fun h => by cases id_injective h
      unfold How.content
      dsimp only [CsName.cs]
      rw [if_neg (by simpa using h)]
      cases e with
      | utf32 =>
        have h : Transcode.hasSpec (.utf .utf32) (.sbc j) = true := rfl
        rw [h, if_pos rfl]
        dsimp only
        rw [dir]; rfl
      | utf8 => rfl
      | utf16 => rfl
  | sbc i =>
    cases dn with
    | utf e =>
      have h : (CsName.sbc i).id ≠ (CsName.utf e).id := fun h => by cases id_injective h
      unfold How.content
      dsimp only [CsName.cs]
      rw [if_neg (by simpa using h)]
      cases e with
      | utf32 =>
        have h : Transcode.hasSpec (.sbc i) (.utf .utf32) = true := rfl
        rw [h, if_pos rfl]
        dsimp only
        rw [dir]; rfl
      | utf8 => rfl
      | utf16 => rfl
    | sbc j =>
      unfold How.content
      dsimp only [CsName.cs]
      by_cases h : (CsName.sbc i).id = (CsName.sbc j).id
      · have h1 := id_injective h
        injection h1 with h1
        subst h1
        have h2 : Transcode.hasSpec (.sbc i) (.sbc i) = true := by simp [Transcode.hasSpec]
        rw [h2, if_pos rfl, if_pos (by simp)]
        dsimp only
        rw [dir]; rfl
      · have h2 : Transcode.hasSpec (.sbc i) (.sbc j) = false := by
          simp only [Transcode.hasSpec, beq_eq_false_iff_ne, ne_eq]
          intro g; subst g; exact h rfl
        rw [h2, if_neg (fun g => h (of_decide_eq_true g)), if_neg Bool.false_ne_true]
        rfl

variable {how : How}

/-- The content with a notifier is that without, in what it writes. -/
theorem loggedContent_lawful (L : Lawful D Rep) (S T : CharT) (signed : Bool) (s d : CharsetArg) (hs : s.name.unitSize = S.size)
    (hd : d.name.unitSize = T.size) :
    (loggedContent D S T signed s d how).Lawful (logged D) (RepAny Rep) (how.Ok s.name.cs d.name.cs) (how.text s.name.cs d.name.cs) := by
  have hid : decide (s.name.id = d.name.id) = true → s.name.cs = d.name.cs := fun h => congrArg CsName.cs (id_injective (of_decide_eq_true h))
  cases how with
  | copy => exact How.lawful .copy (lawful_any L) signed _ _ _ hid
  | copyOther => exact How.lawful .copyOther (lawful_any L) signed _ _ _ hid
  | unchecked =>
    have H := How.lawful .unchecked L signed _ _ _ hid
    refine ⟨fun src h => ?_, fun src h => H.size src h⟩
    rintro ⟨st, l⟩ t hr
    obtain ⟨st', e, r, a⟩ := H.printsTight src h st t hr
    rw [unsafe_erases S T signed s d hs hd] at e
    obtain ⟨⟨st1, q⟩, e1, rfl⟩ := Option.map_eq_some_iff.1 e
    refine ⟨(st1, l ++ q.events), ?_, r, a⟩
    show loggedUnsafe D S T s d src (st, l) = _
    unfold loggedUnsafe
    rw [e1]; rfl
  | transcode =>
    have H := How.lawful .transcode L signed _ _ _ hid
    refine ⟨fun src h => ?_, fun src h => H.size src h⟩
    rintro ⟨st, l⟩ t hr
    obtain ⟨st', e, r, a⟩ := H.printsTight src h st t hr
    rw [logged_erases S T signed s d hs hd] at e
    obtain ⟨⟨st1, q⟩, e1, rfl⟩ := Option.map_eq_some_iff.1 e
    refine ⟨(st1, l ++ q.events), ?_, r, a⟩
    show loggedWrite D S T s d src (st, l) = _
    unfold loggedWrite
    rw [e1]; rfl

/-- What is told while a string is transcoded. -/
theorem hears_transcoded (L : Lawful D Rep) (S T : CharT) (signed : Bool) (s d : CharsetArg) (hs : s.name.unitSize = S.size)
    (hd : d.name.unitSize = T.size) (x : List Nat) (ms : List Mark) (hu : s.name.cs.Units x ∧ d.name.cs.Units [])
    (hU : Transcode.Units s.name x) (hm : Marks false s.name x ms) (hsp : Spared true ⟨false, false, false⟩ s.name d.name ms) :
    HearsPr D Rep ((loggedContent D S T signed s d .transcode).write x) (notes d.name x.length ms) := by
  intro st l t hr
  obtain ⟨⟨st', l'⟩, e, r, g, -⟩ := (loggedContent_lawful (how := .transcode) L S T signed s d hs hd).printsTight x hu (st, l) t hr
  have e0 := e
  change loggedWrite D S T s d x (st, l) = _ at e
  unfold loggedWrite at e
  obtain ⟨⟨st1, q⟩, e1, e2⟩ := Option.map_eq_some_iff.1 e
  injection e2 with e2 e3
  dsimp only at e2 e3
  subst e2 e3
  refine ⟨st1, q.events, _, e0, r, fun hg => ⟨g hg, ?_⟩⟩
  obtain ⟨st2, q2, e4, h4⟩ := Transcode.transcode_dst_notes_all_partial L S T s d hs hd false x ms hU hm hsp st t hr (g hg)
  rw [e1] at e4
  injection e4 with e4
  injection e4 with e5 e6
  subst e5 e6
  exact (h4 hg).2

/-- What is told while a string is transcoded with the unsafe functions. -/
theorem hears_unchecked (L : Lawful D Rep) (S T : CharT) (signed : Bool) (s d : CharsetArg) (hs : s.name.unitSize = S.size)
    (hd : d.name.unitSize = T.size) (x : List Nat) (ms : List Mark) (hu : s.name.cs.WellFormed x)
    (hU : Transcode.Units s.name x) (hm : Marks false s.name x ms) (hsp : Spared false ⟨false, false, false⟩ s.name d.name ms) (hw : ∀ m ∈ ms, m.bad = false) :
    HearsPr D Rep ((loggedContent D S T signed s d .unchecked).write x) (notes d.name x.length ms) := by
  intro st l t hr
  obtain ⟨⟨st', l'⟩, e, r, g, -⟩ := (loggedContent_lawful (how := .unchecked) L S T signed s d hs hd).printsTight x hu (st, l) t hr
  have e0 := e
  change loggedUnsafe D S T s d x (st, l) = _ at e
  unfold loggedUnsafe at e
  obtain ⟨⟨st1, q⟩, e1, e2⟩ := Option.map_eq_some_iff.1 e
  injection e2 with e2 e3
  dsimp only at e2 e3
  subst e2 e3
  refine ⟨st1, q.events, _, e0, r, fun hg => ⟨g hg, ?_⟩⟩
  obtain ⟨st2, q2, e4, h4⟩ := Transcode.unsafe_transcode_dst_notes_all_partial L S T s d hs hd false x ms hU hm hsp hw st t hr (g hg)
  rw [e1] at e4
  injection e4 with e4
  injection e4 with e5 e6
  subst e5 e6
  exact (h4 hg).2

theorem hears_copied (L : Lawful D Rep) (S T : CharT) (signed : Bool) (s d : CharsetArg) (h : how = .copy ∨ how = .copyOther) (x : List Nat) :
    HearsPr D Rep ((loggedContent D S T signed s d how).write x) [] := by
  rcases h with rfl | rfl
  · exact .quiet (x := x) fun l => ⟨true, (Print.copy_lawful (lawful_at L l) fun _ => True).printsTight x trivial⟩
  · exact .quiet (x := x) fun l => ⟨true, (Print.copyOther_lawful (lawful_at L l) fun _ => True).printsTight x trivial⟩

/-- every printer of the string writes the text that the width calculator keeps of it -/
theorem stringItem_hears {C : Charset (σ × Log)} (HC : ∀ l, C.Lawful (logged D) (RepAt Rep l)) (W : WCalc) (X : Content (σ × Log)) (how : How)
    (al : Option AlignFmt) (precision : Option Int) (src x : List Nat) (N : List Event)
    (hn : precision = none → x = src)
    (hx : ∀ p r, precision = some p → W.strWidthPos p src = some r → src.take (src.length - r.2.length) = x)
    (h : HearsPr D Rep (X.write x) N) :
    ∀ p p' pr, (stringItem C W X how al precision src).make p = some (p', pr) → HearsPr D Rep pr N := by
  have plain : ∀ text p p' pr, ((Print.addContentSize X text p).map fun p => (p, X.write text)) = some (p', pr) → pr = X.write text := by
    intro text p p' pr e
    obtain ⟨q, -, e⟩ := Option.map_eq_some_iff.1 e
    injection e with _ e; exact e.symm
  have aligned : ∀ a strw text p p' pr, alignedMake C X a strw text p = some (p', pr) → ∃ n, pr = alignedPrint C a n (X.write text) := by
    intro a strw text p p' pr e
    unfold alignedMake at e
    obtain ⟨r, -, e⟩ := Option.bind_eq_some_iff.1 e
    obtain ⟨q, -, e⟩ := Option.map_eq_some_iff.1 e
    injection e with _ e; exact ⟨_, e.symm⟩
  intro p p' pr e
  cases precision with
  | none =>
    have hx0 := hn rfl
    subst hx0
    cases al with
    | none =>
      have : pr = X.write x := by
        cases how <;>
        · unfold stringItem at e
          dsimp only at e
          first | unfold Print.copyString at e | unfold Print.transcodeString at e
          dsimp only at e
          obtain ⟨q, -, e⟩ := Option.bind_eq_some_iff.1 e
          exact plain _ _ _ _ e
      rw [this]; exact h
    | some a =>
      unfold stringItem Print.alignedString at e
      dsimp only at e
      obtain ⟨lim, -, e⟩ := Option.bind_eq_some_iff.1 e
      obtain ⟨w, -, e⟩ := Option.bind_eq_some_iff.1 e
      obtain ⟨n, rfl⟩ := aligned _ _ _ _ _ _ e
      exact .aligned HC a n h
  | some z =>
    cases al with
    | none =>
      unfold stringItem Print.preciseString at e
      dsimp only at e
      obtain ⟨r, h1, e⟩ := Option.bind_eq_some_iff.1 e
      obtain ⟨q, -, e⟩ := Option.bind_eq_some_iff.1 e
      rw [plain _ _ _ _ e, hx z r rfl h1]; exact h
    | some a =>
      unfold stringItem Print.alignedPreciseString at e
      dsimp only at e
      obtain ⟨r, h1, e⟩ := Option.bind_eq_some_iff.1 e
      obtain ⟨n, rfl⟩ := aligned _ _ _ _ _ _ e
      rw [hx z r rfl h1]
      exact .aligned HC a n h

/-! ## The items -/

variable {C : Charset σ}

/-- `Format.stringItem_means` (Format/StringProps.lean) for any content with the text that it should have; and what the width
calculator keeps. -/
theorem stringItem_of (HC : C.Lawful D Rep) (c : Calc) (how : How) (signed : Bool) (s d : Cs) (X : Content σ)
    (HX : X.Lawful D Rep (how.Ok s d) (how.text s d)) (B : Int) (al : Option AlignFmt) (ha : CInt.InI32 (al.getD AlignFmt.dflt).width)
    (precision : Option Int) (hp : ∀ p, precision = some p → p ≤ wmax ∧ c ≠ .std) (src : List Nat) (hc : c.Ok s src) :
    ∃ x, (∃ k, x = src.take k) ∧ KeptOf c s precision src x ∧ (precision = none → x = src) ∧
      (∀ p r, precision = some p → (c.on signed s).strWidthPos p src = some r → src.take (src.length - r.2.length) = x) ∧
      (how.Ok s d x → (how.text s d x).length < ssizeMax →
      ∀ n, FillCount (al.getD AlignFmt.dflt).width (c.columns s x * 65536) n →
      (stringItem C (c.on signed s) X how al precision src).Means false D Rep B
        (stringMeaning C.encodeChar (al.getD AlignFmt.dflt) precision.isSome n (how.text s d x) (c.columns s x * 65536))) := by
  have HW := c.measures signed s
  cases precision with
  | none =>
    refine ⟨src, ⟨src.length, by simp⟩, rfl, fun _ => rfl, by simp, fun hh hlen n hn => ?_⟩
    cases al with
    | none =>
      have hn0 : n = 0 := (Print.fillCount_unique hn).2 (by simp [AlignFmt.dflt])
      subst hn0
      have := Print.string_means (τ := false) (Ok := fun src => c.Ok s src ∧ how.Ok s d src) (slack := 65535)
        ⟨HW.slack0, HW.nonneg, fun src h => HW.strWidth src h.1⟩ ⟨fun src h => HX.prints src h.2, fun src h => HX.size src h.2⟩
        B ⟨hc, hh⟩ hlen
      have h2 : (stringItem C (c.on signed s) X how none none src).Means false D Rep B
          ⟨how.text s d src, c.columns s src * 65536, c.columns s src * 65536, 65535⟩ := by
        cases how with
        | copy => exact this.1
        | copyOther => exact this.1
        | transcode => exact this.2
        | unchecked => exact this.2
      refine Item.Means.weaken h2 ?_ ?_ ?_ ?_ <;>
        simp only [stringMeaning, Option.getD_none, AlignFmt.dflt, padded_zero, Option.isSome_none, Bool.false_eq_true, if_false] <;> omega
    | some a =>
      have h2 := Print.alignedString_means (τ := false) (Ok := fun src => c.Ok s src ∧ how.Ok s d src) HC
        ⟨HW.slack0, HW.nonneg, fun src h => HW.strWidth src h.1⟩ ⟨fun src h => HX.prints src h.2, fun src h => HX.size src h.2⟩
        B a ha ⟨hc, hh⟩ hlen n hn
      refine Item.Means.weaken h2 rfl rfl ?_ ?_ <;>
        simp only [stringMeaning, Print.Meaning.aligned, Option.getD_some, Option.isSome_none, Bool.false_eq_true, if_false] <;> omega
  | some p =>
    obtain ⟨hp1, hp2⟩ := hp p rfl
    have cut : ∃ x y, src = x ++ y ∧ c.Kept s p src x ∧ (c.on signed s).strWidthPos p src = some ((c.columns s x : Int) * 65536, y) := by
      cases c with
      | std => exact absurd rfl hp2
      | fast => obtain ⟨x, y, h1, h2, h3⟩ := Print.pos_fast signed s p hp1 src; exact ⟨x, y, h1, h2, h3⟩
      | u32len => obtain ⟨x, y, h1, h2, h3, h4, h5⟩ := Print.pos_u32len signed s p hp1 src hc.1; exact ⟨x, y, h1, h2, h5⟩
      | fastU32len =>
        obtain ⟨x, y, h1, h2, h3, h4, h5⟩ := Print.pos_u32len signed s p hp1 src hc.1
        rw [← (Calc.fast_eq signed s src (hc.2 rfl) p).2] at h5
        exact ⟨x, y, h1, h2, h5⟩
    obtain ⟨x, y, hxy, hk, hpos⟩ := cut
    have htake : src.take (src.length - y.length) = x := by rw [hxy]; simp
    refine ⟨x, ⟨_, htake.symm⟩, hk, by simp, ?_, fun hh hlen n hn => ?_⟩
    · intro p' r e h
      injection e with e
      subst e
      rw [hpos] at h
      injection h with h
      subst h
      exact htake
    · have hwm : wmax = 2147483647 := rfl
      have hw0 : 0 ≤ (c.columns s x : Int) * 65536 := HW.nonneg x
      have hw1 : (c.columns s x : Int) * 65536 ≤ wmax := by have := hk.2.1; omega
      cases al with
      | none =>
        have hn0 : n = 0 := (Print.fillCount_unique hn).2 (by simp [AlignFmt.dflt])
        subst hn0
        have h2 := Print.preciseString_means (τ := false) (W := c.on signed s) HX B p hh hxy _ hw0 hw1 hpos hlen
        refine Item.Means.weaken h2 ?_ ?_ ?_ ?_ <;>
          simp only [stringMeaning, Option.getD_none, AlignFmt.dflt, padded_zero, Option.isSome_some, if_true] <;> omega
      | some a =>
        have h2 := Print.alignedPreciseString_means (τ := false) (W := c.on signed s) HC HX B a ha p hh hxy _ hw0 hw1 hpos hlen n hn
        refine Item.Means.weaken h2 ?_ ?_ ?_ ?_ <;>
          simp only [stringMeaning, Option.getD_some, Option.isSome_some, if_true] <;> omega

end Strf.Told

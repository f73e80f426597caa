import Verif.Override.Props
import Verif.Print.PolicyProps
/-!
# C90: whole calls with types of the user's and with overriders
-/
namespace Strf.Override
open Strf.Format
open Strf.Program (Tag Cat FacetArg Pack Arg Call CharsetsAre AllTyped constrainable allConstrainable)
open Strf.Print (Item Meaning AllMean total printPlain printCalc lineText txt)
open Strf.Dest (Dest Lawful Prints Maker Sized Appender Writer World Arr)
open Strf.Facets (writtenAll applicable InForce)
open Strf.IntPrinter (AlignFmt)

variable {ω υ π : Type} {T : CharT} {sg : CharT → Bool} {cl : Classes ω υ π} {M : π → Int → Meaning → Prop} {B : Int}
  {c : UCall ω υ} {ms : List Meaning}

/-- The printers of the user's print what they should: on every destination that keeps the contract (C09) (and, if `τ`, ask it for no more room than that). -/
def PrintersOk (τ : Bool) (cl : Classes ω υ π) (M : π → Int → Meaning → Prop) : Prop :=
  ∀ (σ : Type) (D : Dest Nat σ) (Rep : σ → List Nat → Prop), Lawful D Rep → ∀ p B m, M p B m → (cl.printer D p).Means τ D Rep B m

theorem withAll_flatten (l : List (UPack ω)) : Facets.withAll [] l = l.flatten := by
  have : ∀ (l : List (UPack ω)) (a : UPack ω), Facets.withAll a l = a ++ l.flatten := by
    intro l
    induction l with
    | nil => intro a; simp [Facets.withAll]
    | cons x l ih =>
      intro a
      have := ih (Facets.merge a x)
      unfold Facets.withAll at this ⊢
      rw [List.foldl_cons, this]; simp [Facets.merge]
  simpa using this l []

theorem items_le {σ : Type} {D : Dest Nat σ} {n k : Nat} (h : n ≤ k) {its : List (Item σ)} (e : c.items D T sg cl n = some its) :
    c.items D T sg cl k = some its := makeEach_le h e

/-- C90 (part): a call that means something, with any overriders and types of the user's, compiles (with every sufficient depth of instantiations, to the same
printers) and the printer of each argument prints what it means. Missing is what is missing in C73. -/
theorem ucall_exact_partial {σ : Type} {D : Dest Nat σ} {Rep : σ → List Nat → Prop} (L : Lawful D Rep) (HM : PrintersOk τ cl M) (h : c.Means T cl M B ms) :
    ∃ n its, (∀ k, n ≤ k → c.items D T sg cl k = some its) ∧ AllMean τ D Rep B its ms := by
  obtain ⟨ht, K, hch, hd⟩ := h
  obtain ⟨n, its, e, hm⟩ := uargs_exact (sg := sg) L (HM σ D Rep L) hd ht hch
  refine ⟨n, its, fun k hk => items_le hk ?_, hm⟩
  unfold UCall.items Facets.callFacets
  rw [withAll_flatten]
  exact e

/-- C90: strf::to_string…(args...) returns the text. -/
theorem ucall_to_string_partial (HM : PrintersOk τ cl M) (h : c.Means T cl M B ms) (junk : List Nat) (hj : junk.length = 64) :
    ∃ n its s, (∀ k, n ≤ k → c.items Maker.dest T sg cl k = some its) ∧ printPlain Maker.dest c.eol its (Maker.init junk) = some s ∧
      (Maker.finishE true s).2 = some (c.text ms) := by
  obtain ⟨n, its, hi, hm⟩ := ucall_exact_partial (τ := τ) (sg := sg) Maker.lawful HM h
  obtain ⟨s, e, r⟩ := Print.to_string_exact (τ := τ) hm c.eol junk hj
  exact ⟨n, its, s, hi, e, r⟩

/-- C90: so does to_string.reserve(n), and to_string.reserve_calc(), that creates the string with the size of the text. -/
theorem ucall_to_string_reserve_partial (HM : PrintersOk τ cl M) (h : c.Means T cl M B ms) :
    ∃ n its, (∀ k, n ≤ k → c.items (Sized.dest 0) T sg cl k = some its) ∧
      (∀ n, ∃ s, printPlain (Sized.dest 0) c.eol its (Sized.init 0 n) = some s ∧ Sized.finish s = c.text ms) ∧
      ∀ order : List Nat, order.Perm (List.range c.args.length) →
        ∃ s, printCalc (Sized.dest 0) c.eol its order (Sized.init 0) = some s ∧ Sized.finish s = c.text ms ∧
          ∀ create : Nat → Sized Nat, create (c.text ms).length = Sized.init 0 (c.text ms).length →
            printCalc (Sized.dest 0) c.eol its order create = some s := by
  obtain ⟨n, its, hi, hm⟩ := ucall_exact_partial (τ := τ) (sg := sg) (Sized.lawful 0) HM h
  obtain ⟨h1, h2⟩ := Print.to_string_reserve_exact (τ := τ) hm c.eol
  refine ⟨n, its, hi, h1, fun order ho => h2 order ?_⟩
  have : ∀ {α β : Type} (f : α → Option β) (l : List α) its, makeEach f l = some its → its.length = l.length := by
    intro α β f l
    induction l with
    | nil => intro its e; simp only [makeEach, Option.some.injEq] at e; subst e; rfl
    | cons a l ih =>
      intro its e
      unfold makeEach at e
      obtain ⟨it, _, e⟩ := Option.bind_eq_some_iff.mp e
      obtain ⟨r, e1, rfl⟩ := Option.map_eq_some_iff.mp e
      simp [ih r e1]
  rw [this _ _ _ (hi n (Nat.le_refl n))]; exact ho

/-- C90: strf::append(str)…(args...) -/
theorem ucall_append_partial (HM : PrintersOk τ cl M) (h : c.Means T cl M B ms) (start junk : List Nat) (hj : junk.length = 64) :
    ∃ n its s, (∀ k, n ≤ k → c.items Appender.dest T sg cl k = some its) ∧ printPlain Appender.dest c.eol its (Appender.init start junk) = some s ∧
      (Appender.destroyE true (Appender.finishE true s).1).str = start ++ c.text ms := by
  obtain ⟨n, its, hi, hm⟩ := ucall_exact_partial (τ := τ) (sg := sg) (Appender.lawful start) HM h
  obtain ⟨⟨s, e, r⟩, _⟩ := Print.append_exact (τ := τ) hm c.eol junk hj
  exact ⟨n, its, s, hi, e, r⟩

/-- C90: strf::to(FILE*)…(args...) -/
theorem ucall_to_cfile_partial (HM : PrintersOk τ cl M) (h : c.Means T cl M B ms) (acc : World Nat) (junk : List Nat) (hj : 64 ≤ junk.length) :
    ∃ n its s, (∀ k, n ≤ k → c.items (Writer.cfile acc) T sg cl k = some its) ∧
      printPlain (Writer.cfile acc) c.eol its (Writer.init junk) = some s ∧
      (Writer.finish acc s).1.file <+: c.text ms ∧
      (Writer.finish acc s).2.1 = (Writer.finish acc s).1.file.length ∧
      ((Writer.finish acc s).2.2 = true ↔ (Writer.finish acc s).1.file = c.text ms) := by
  obtain ⟨n, its, hi, hm⟩ := ucall_exact_partial (τ := τ) (sg := sg) (Writer.lawful acc) HM h
  obtain ⟨s, e, r⟩ := Print.to_cfile_exact (τ := τ) acc hm c.eol junk hj
  exact ⟨n, its, s, hi, e, r⟩

/-- C90: strf::to(char_array)…(args...) -/
theorem ucall_to_cstr_partial (HM : PrintersOk τ cl M) (h : c.Means T cl M B ms) (arr garb : List Nat) (hN : 1 ≤ arr.length) (hg : garb.length = 64) :
    ∃ n its s, (∀ k, n ≤ k → c.items Arr.dest T sg cl k = some its) ∧ printPlain Arr.dest c.eol its (Arr.initCstr arr garb) = some s ∧
      s.arr.length = arr.length ∧ ((c.text ms).length + 64 < arr.length → s.good = true) ∧
      (s.good = true → ∃ s', Arr.finishCstr 0 s = some (s', .user (c.text ms).length, false) ∧
        s'.arr.take ((c.text ms).length + 1) = c.text ms ++ [0]) := by
  obtain ⟨n, its, hi, hm⟩ := ucall_exact_partial (τ := τ) (sg := sg) (Arr.lawful arr.length (arr.length - 1)) HM h
  obtain ⟨s, e, r1, r2, r3, _⟩ := Print.to_cstr_exact_partial (τ := τ) arr garb hN hg hm c.eol
  exact ⟨n, its, s, hi, e, r1, r2, r3⟩

/-- C90: The text is one text. -/
theorem ucall_text_unique {ms' : List Meaning} {B' : Int} (HM : PrintersOk τ cl M) (h : c.Means T cl M B ms) (h' : c.Means T cl M B' ms') :
    c.text ms = c.text ms' := by
  obtain ⟨n, its, s, hi, e, r⟩ := ucall_to_string_partial (sg := fun _ => false) HM h (List.replicate 64 0) (by simp)
  obtain ⟨n', its', s', hi', e', r'⟩ := ucall_to_string_partial (sg := fun _ => false) HM h' (List.replicate 64 0) (by simp)
  have := (hi (max n n') (Nat.le_max_left _ _)).symm.trans (hi' (max n n') (Nat.le_max_right _ _))
  cases this
  rw [e] at e'; cases e'
  rw [r] at r'
  exact Option.some.inj r'

/-! ### calls without them -/

mutual
/-- a facet of strf, in a program that has others -/
def uf : Facets.Fpe Cat Tag FacetArg → Facets.Fpe UCat UTag (UFacet ω)
  | .facet c v => .facet (.std c) (.std v)
  | .constrained f e => .constrained (fun t => match t with | .std t => f t | .user _ => false) (uf e)
  | .ref e => .ref (uf e)
  | .pack es => .pack (ufs es)
def ufs : Pack → UPack ω
  | [] => []
  | e :: es => uf e :: ufs es
end

mutual
/-- an argument of C73, in a program that has others -/
def ua : Arg → UArg ω υ
  | .int t cs x => .leaf (.int t cs x)
  | .float F cs bits => .leaf (.float F cs bits)
  | .str S cs src => .leaf (.str S cs src)
  | .rawChr S u => .leaf (.rawChr S u)
  | .chr S cs u => .leaf (.chr S cs u)
  | .bool as x => .leaf (.bool as x)
  | .ptr as address => .leaf (.ptr as address)
  | .join args => .join (uas args)
  | .alignedJoin a args => .alignedJoin a (uas args)
  | .range args => .range (uas args)
  | .separatedRange fmt sep args => .separatedRange fmt sep (uas args)
  | .tr str args => .tr str (uas args)
  | .inner fs args => .inner (ufs fs) (uas args)
def uas : List Arg → List (UArg ω υ)
  | [] => []
  | a :: as => ua a :: uas as
end

mutual
theorem std_uf : (e : Facets.Fpe Cat Tag FacetArg) → std (uf (ω := ω) e) = e
  | .facet c v => by simp [uf, std]
  | .constrained f e => by simp [uf, std, std_uf e]
  | .ref e => by simp [uf, std, std_uf e]
  | .pack es => by simp [uf, std, std_ufs es]
theorem std_ufs : (es : Pack) → stdAll (ufs (ω := ω) es) = es
  | [] => rfl
  | e :: es => by simp [ufs, stdAll, std_uf e, std_ufs es]
end

mutual
theorem uf_no_overrider : (e : Facets.Fpe Cat Tag FacetArg) → ∀ x ∈ (uf (ω := ω) e).written, ∀ t, x.1 ≠ .overrider t
  | .facet c v => by intro x hx t; simp [uf, Facets.Fpe.written] at hx; subst hx; simp
  | .constrained f e => by
    intro x hx t
    simp only [uf, Facets.Fpe.written, List.mem_map] at hx
    obtain ⟨y, hy, rfl⟩ := hx
    exact uf_no_overrider e y hy t
  | .ref e => by unfold uf Facets.Fpe.written; exact uf_no_overrider e
  | .pack es => by unfold uf Facets.Fpe.written; exact ufs_no_overrider es
theorem ufs_no_overrider : (es : Pack) → ∀ x ∈ writtenAll (ufs (ω := ω) es), ∀ t, x.1 ≠ .overrider t
  | [] => by intro x hx; simp [ufs, writtenAll] at hx
  | e :: es => by
    intro x hx
    unfold ufs writtenAll at hx
    rcases List.mem_append.mp hx with hx | hx
    · exact uf_no_overrider e x hx
    · exact ufs_no_overrider es x hx
end

/-- facets of strf do not change which overrider is in force -/
theorem overrider_child (fp : UPack ω) (fs : Pack) (tag : UTag) (b : Bool) :
    theOverrider (Facets.childFacets fp (ufs fs)) b tag = theOverrider fp b tag := by
  unfold theOverrider
  have h : Facets.getFacet udflt (.overrider tag) tag (Facets.childFacets fp (ufs fs)) = Facets.getFacet udflt (.overrider tag) tag fp := by
    refine InForce.unique (Facets.get_facet_exact udflt _ tag _) ?_
    have hg := Facets.get_facet_exact udflt (.overrider tag) tag fp
    unfold InForce at hg ⊢
    have : applicable (UCat.overrider tag) tag (writtenAll (Facets.childFacets fp (ufs fs))) = applicable (.overrider tag) tag (writtenAll fp) := by
      have e : applicable (UCat.overrider tag) tag (writtenAll (ufs (ω := ω) fs)) = [] := by
        unfold applicable
        rw [List.map_eq_nil_iff, List.filter_eq_nil_iff]
        intro x hx
        have := ufs_no_overrider fs x hx tag
        simp [this]
      unfold Facets.childFacets
      simp only [writtenAll, Facets.Fpe.written, List.append_nil]
      rw [Facets.applicable_append, e, List.append_nil]
    rw [this]
    exact hg
  rw [h]

mutual
/-- the types of the values in an argument that can be overridden -/
def overridables : Arg → List Tag
  | .float F _ _ => [.float F]
  | .bool _ _ => [.bool]
  | .ptr _ _ => [.pointer]
  | .join args | .alignedJoin _ args | .range args | .separatedRange _ _ args | .tr _ args | .inner _ args => allOverridables args
  | .int .. | .str .. | .rawChr .. | .chr .. => []
def allOverridables : List Arg → List Tag
  | [] => []
  | a :: as => overridables a ++ allOverridables as
end

variable {σ : Type} {D : Dest Nat σ}

mutual
theorem make_ua : (a : Arg) → (fp : UPack ω) → (∀ t ∈ overridables a, theOverrider fp true (.std t) = none) →
    (∀ n it, make D T sg cl n fp (ua a) = some it → a.item D T sg (stdAll fp) = some it) ∧
    ∀ it, a.item D T sg (stdAll fp) = some it → ∃ n, make D T sg cl n fp (ua a) = some it
  | .int t cs x, fp, _ => by
    refine ⟨fun n it e => ?_, fun it e => ⟨1, ?_⟩⟩
    · cases n with
      | zero => simp [make] at e
      | succ n => simpa [ua, make, theOverrider, Leaf.overridable, Leaf.arg] using e
    · simpa [ua, make, theOverrider, Leaf.overridable, Leaf.arg] using e
  | .str S cs x, fp, _ => by
    refine ⟨fun n it e => ?_, fun it e => ⟨1, ?_⟩⟩
    · cases n with
      | zero => simp [make] at e
      | succ n => simpa [ua, make, theOverrider, Leaf.overridable, Leaf.arg] using e
    · simpa [ua, make, theOverrider, Leaf.overridable, Leaf.arg] using e
  | .rawChr S u, fp, _ => by
    refine ⟨fun n it e => ?_, fun it e => ⟨1, ?_⟩⟩
    · cases n with
      | zero => simp [make] at e
      | succ n => simpa [ua, make, theOverrider, Leaf.overridable, Leaf.arg] using e
    · simpa [ua, make, theOverrider, Leaf.overridable, Leaf.arg] using e
  | .chr S cs u, fp, _ => by
    refine ⟨fun n it e => ?_, fun it e => ⟨1, ?_⟩⟩
    · cases n with
      | zero => simp [make] at e
      | succ n => simpa [ua, make, theOverrider, Leaf.overridable, Leaf.arg] using e
    · simpa [ua, make, theOverrider, Leaf.overridable, Leaf.arg] using e
  | .float F cs bits, fp, h => by
    have ho := h (.float F) (by simp [overridables])
    refine ⟨fun n it e => ?_, fun it e => ⟨1, ?_⟩⟩
    · cases n with
      | zero => simp [make] at e
      | succ n => simpa [ua, make, Leaf.overridable, Leaf.arg, Leaf.tag, ho] using e
    · simpa [ua, make, Leaf.overridable, Leaf.arg, Leaf.tag, ho] using e
  | .bool as x, fp, h => by
    have ho := h .bool (by simp [overridables])
    refine ⟨fun n it e => ?_, fun it e => ⟨1, ?_⟩⟩
    · cases n with
      | zero => simp [make] at e
      | succ n => simpa [ua, make, Leaf.overridable, Leaf.arg, Leaf.tag, ho] using e
    · simpa [ua, make, Leaf.overridable, Leaf.arg, Leaf.tag, ho] using e
  | .ptr as address, fp, h => by
    have ho := h .pointer (by simp [overridables])
    refine ⟨fun n it e => ?_, fun it e => ⟨1, ?_⟩⟩
    · cases n with
      | zero => simp [make] at e
      | succ n => simpa [ua, make, Leaf.overridable, Leaf.arg, Leaf.tag, ho] using e
    · simpa [ua, make, Leaf.overridable, Leaf.arg, Leaf.tag, ho] using e
  | .join args, fp, h => by
    obtain ⟨h1, h2⟩ := make_uas args fp (by simpa [overridables] using h)
    unfold ua Arg.item
    refine ⟨fun n it e => ?_, fun it e => ?_⟩
    · cases n with
      | zero => simp [make] at e
      | succ n =>
        rw [make] at e
        obtain ⟨its, e1, rfl⟩ := Option.map_eq_some_iff.mp e
        rw [h1 n its e1]; rfl
    · obtain ⟨its, e1, rfl⟩ := Option.map_eq_some_iff.mp e
      obtain ⟨n, hn⟩ := h2 its e1
      exact ⟨n + 1, by rw [make, hn]; rfl⟩
  | .alignedJoin al args, fp, h => by
    obtain ⟨h1, h2⟩ := make_uas args fp (by simpa [overridables] using h)
    unfold ua Arg.item
    refine ⟨fun n it e => ?_, fun it e => ?_⟩
    · cases n with
      | zero => simp [make] at e
      | succ n =>
        rw [make] at e
        obtain ⟨its, e1, rfl⟩ := Option.map_eq_some_iff.mp e
        rw [h1 n its e1]; rfl
    · obtain ⟨its, e1, rfl⟩ := Option.map_eq_some_iff.mp e
      obtain ⟨n, hn⟩ := h2 its e1
      exact ⟨n + 1, by rw [make, hn]; rfl⟩
  | .range args, fp, h => by
    obtain ⟨h1, h2⟩ := make_uas args fp (by simpa [overridables] using h)
    unfold ua Arg.item
    refine ⟨fun n it e => ?_, fun it e => ?_⟩
    · cases n with
      | zero => simp [make] at e
      | succ n =>
        rw [make] at e
        obtain ⟨its, e1, rfl⟩ := Option.map_eq_some_iff.mp e
        rw [h1 n its e1]; rfl
    · obtain ⟨its, e1, rfl⟩ := Option.map_eq_some_iff.mp e
      obtain ⟨n, hn⟩ := h2 its e1
      exact ⟨n + 1, by rw [make, hn]; rfl⟩
  | .separatedRange fmt sep args, fp, h => by
    obtain ⟨h1, h2⟩ := make_uas args fp (by simpa [overridables] using h)
    unfold ua Arg.item
    refine ⟨fun n it e => ?_, fun it e => ?_⟩
    · cases n with
      | zero => simp [make] at e
      | succ n =>
        rw [make] at e
        obtain ⟨its, e1, rfl⟩ := Option.map_eq_some_iff.mp e
        rw [h1 n its e1]; rfl
    · obtain ⟨its, e1, rfl⟩ := Option.map_eq_some_iff.mp e
      obtain ⟨n, hn⟩ := h2 its e1
      exact ⟨n + 1, by rw [make, hn]; rfl⟩
  | .tr str args, fp, h => by
    obtain ⟨h1, h2⟩ := make_uas args fp (by simpa [overridables] using h)
    unfold ua Arg.item
    refine ⟨fun n it e => ?_, fun it e => ?_⟩
    · cases n with
      | zero => simp [make] at e
      | succ n =>
        rw [make] at e
        obtain ⟨its, e1, rfl⟩ := Option.map_eq_some_iff.mp e
        rw [h1 n its e1]; rfl
    · obtain ⟨its, e1, rfl⟩ := Option.map_eq_some_iff.mp e
      obtain ⟨n, hn⟩ := h2 its e1
      exact ⟨n + 1, by rw [make, hn]; rfl⟩
  | .inner fs args, fp, h => by
    obtain ⟨h1, h2⟩ := make_uas args (Facets.childFacets fp (ufs fs)) (by
      intro t ht; rw [overrider_child]; exact h t (by simpa [overridables] using ht))
    have hs : stdAll (Facets.childFacets fp (ufs fs)) = Facets.childFacets (stdAll fp) fs := by
      simp [Facets.childFacets, stdAll, std, std_ufs]
    rw [hs] at h1 h2
    unfold ua Arg.item
    by_cases hc : allConstrainable fs = true
    · rw [if_pos hc]
      refine ⟨fun n it e => ?_, fun it e => ?_⟩
      · cases n with
        | zero => simp [make] at e
        | succ n =>
          rw [make, std_ufs, if_pos hc] at e
          obtain ⟨its, e1, rfl⟩ := Option.map_eq_some_iff.mp e
          rw [h1 n its e1]; rfl
      · obtain ⟨its, e1, rfl⟩ := Option.map_eq_some_iff.mp e
        obtain ⟨n, hn⟩ := h2 its e1
        exact ⟨n + 1, by rw [make, std_ufs, if_pos hc, hn]; rfl⟩
    · rw [if_neg hc]
      refine ⟨fun n it e => ?_, fun it e => by cases e⟩
      cases n with
      | zero => simp [make] at e
      | succ n => rw [make, std_ufs, if_neg hc] at e; cases e
theorem make_uas : (as : List Arg) → (fp : UPack ω) → (∀ t ∈ allOverridables as, theOverrider fp true (.std t) = none) →
    (∀ n its, makeEach (make D T sg cl n fp) (uas as) = some its → Program.items D T sg (stdAll fp) as = some its) ∧
    ∀ its, Program.items D T sg (stdAll fp) as = some its → ∃ n, makeEach (make D T sg cl n fp) (uas as) = some its
  | [], fp, _ => by simp [uas, makeEach, Program.items]
  | a :: as, fp, h => by
    obtain ⟨h1, h2⟩ := make_ua a fp (fun t ht => h t (by simp [allOverridables, ht]))
    obtain ⟨k1, k2⟩ := make_uas as fp (fun t ht => h t (by simp [allOverridables, ht]))
    unfold uas Program.items
    refine ⟨fun n its e => ?_, fun its e => ?_⟩
    · unfold makeEach at e
      obtain ⟨it, e1, e⟩ := Option.bind_eq_some_iff.mp e
      obtain ⟨r, e2, rfl⟩ := Option.map_eq_some_iff.mp e
      rw [h1 n it e1, k1 n r e2]; rfl
    · obtain ⟨it, e1, e⟩ := Option.bind_eq_some_iff.mp e
      obtain ⟨r, e2, rfl⟩ := Option.map_eq_some_iff.mp e
      obtain ⟨n, hn⟩ := h2 it e1
      obtain ⟨k, hk⟩ := k2 r e2
      refine ⟨max n k, ?_⟩
      unfold makeEach
      rw [make_le (Nat.le_max_left n k) hn, makeEach_le (Nat.le_max_right n k) hk]; rfl
end

/-- C90: Values whose types are not overridden are printed as if there were no overriders: integers, strings and characters always, floating-point numbers, booleans
and pointers if the facet in force for their type is `dont_override`. The printers of a call (with any facets `fp`, any classes) are those of C73. -/
theorem only_overridden (fp : UPack ω) (args : List Arg) (h : ∀ t ∈ allOverridables args, NotOverridden fp (.std t)) (its : List (Item σ)) :
    (∃ n, makeEach (make D T sg cl n fp) (uas args) = some its) ↔ Program.items D T sg (stdAll fp) args = some its := by
  obtain ⟨h1, h2⟩ := make_uas (D := D) (T := T) (sg := sg) (cl := cl) args fp (fun t ht => notOverridden_get (h t ht) true)
  exact ⟨fun ⟨n, hn⟩ => h1 n its hn, h2 its⟩

/-- C90: An overrider that hands the value back as it got it does not compile: no depth of instantiations suffices. -/
theorem endless (o : ω) (fp : UPack ω) (l : Leaf) (hl : l.Overridable) (ho : Overrides fp (.std l.tag) o)
    (h : cl.override o T fp l = some (.arg fp (.leaf l))) (n : Nat) : make D T sg cl n fp (.leaf l) = none := by
  induction n with
  | zero => rfl
  | succ n ih =>
    rw [make, (overridable_iff l).mpr hl, overrides_get ho]
    dsimp only
    rw [h]
    exact ih

/-- C90: Overriders nested in `strf::with` prevail over those outside, and the last one written over those before (by C55). -/
theorem last_overrider (fp fs : UPack ω) (tag : UTag) (o : ω) : Overrides (fp ++ [.pack fs, .facet (.overrider tag) (.overrider tag o)]) tag o := by
  refine .inl ⟨applicable (.overrider tag) tag (writtenAll (fp ++ [.pack fs])), ?_⟩
  rw [show fp ++ [Facets.Fpe.pack fs, .facet (.overrider tag) (.overrider tag o)] = (fp ++ [.pack fs]) ++ [.facet (.overrider tag) (.overrider tag o)] by simp,
    Facets.writtenAll_append, Facets.applicable_append]
  congr 1
  simp [UFacet.cat, writtenAll, Facets.Fpe.written, applicable]

/-! ### cases: tests/override_printable.cpp -/

/-- tests/override_printable.cpp 9–27 my_bool_printer -/
def yesNo (b : Bool) : List Nat := if b then txt "yes" else txt "no"

/-- tests/override_printable.cpp 12–24: `ensure(2 + value)`, then the characters are stored -/
def yesNoItem {σ : Type} (D : Dest Nat σ) (b : Bool) : Item σ :=
  Print.fixed (yesNo b).length (yesNo b).length fun s => D.poke (Dest.ensure D s (yesNo b).length) (yesNo b)

/-- what it means -/
def YesNo (b : Bool) (_ : Int) (m : Meaning) : Prop := m = .ofColumns (yesNo b) (yesNo b).length

/-- constrain<is_bool> -/
def isBool : UTag → Bool := fun t => t = .std .bool

/-- tests/override_printable.cpp 32–61 my_bool_printing_overrider, 63–90 bool_wrapper. (The characters '[' and ']' are of the type of the destination.) -/
def myClasses : Classes Unit Bool Bool where
  type _ := 0
  overridable _ := true
  define x T fp := some (.arg fp (.join [.leaf (.rawChr T 0x5B), .leaf (.bool none x), .leaf (.rawChr T 0x5D)]))
  override _ _ fp l := match l with
    | .bool none x => some (.printer x)
    | .bool (some as) x => some (.arg [.pack fp, .constrained isBool (.facet (.overrider (.std .bool)) (.overrider (.std .bool) ()))]
        (match alignChain as with
          | none => .join [.leaf (.bool none x)]
          | some a => .alignedJoin a [.leaf (.bool none x)]))
    | _ => none
  overrideUser _ _ _ _ := none
  printer D b := yesNoItem D b

theorem myPrinters_ok : PrintersOk true myClasses YesNo := by
  intro σ D Rep L p B m h
  cases h
  show (yesNoItem D p).Means _ _ _ _ _
  unfold yesNoItem
  refine Print.fixed_means B _ _ rfl _ rfl ?_
  exact L.prints_raw (τ := true) _ _ (by cases p <;> decide) (by cases p <;> decide)

/-- what `strf::to_string…(args...)` returns; the depth of instantiations is limited to 900 -/
def uPrinted (T : CharT) (cl : Classes ω υ π) (c : UCall ω υ) : Option (List Nat) :=
  (c.items Maker.dest T (fun _ => false) cl 900).bind fun its =>
    (printPlain Maker.dest c.eol its (Maker.init (List.replicate 64 0))).bind fun s => (Maker.finishE true s).2

/-- `alt_bool` -/
def altBool : UPack Unit := [.facet (.overrider (.std .bool)) (.overrider (.std .bool) ())]

example : uPrinted .char8 myClasses ⟨[altBool], [], [.leaf (.bool none true), .leaf (.rawChr .char8 0x2F), .leaf (.bool none false)], false⟩ = some (txt "yes/no") := by decide +kernel
example : uPrinted .char8 myClasses ⟨[altBool], [], [.leaf (.bool (some [.fill 0x2E, .center (7 * 65536)]) true), .leaf (.rawChr .char8 0x2F),
    .leaf (.bool (some [.fill 0x2E, .center (6 * 65536)]) false)], false⟩ = some (txt "..yes../..no..") := by decide +kernel
example : uPrinted .char8 myClasses ⟨[altBool], [], [.leaf (.int Program.intTy [] 123)], false⟩ = some (txt "123") := by decide +kernel
example : uPrinted .char8 myClasses ⟨[altBool], [], [.user true, .leaf (.rawChr .char8 0x2F), .user false], false⟩ = some (txt "[yes]/[no]") := by decide +kernel
/-- without the overrider -/
example : uPrinted .char8 myClasses ⟨[], [], [.user true, .leaf (.bool none false)], false⟩ = some (txt "[true]false") := by decide +kernel
/-- constrained to another type; in `strf::with` -/
example : uPrinted .char8 myClasses ⟨[], [], [.leaf (.bool none true), .inner altBool [.leaf (.bool none true)],
    .inner [.constrained (fun t => t = .user 0) (.pack altBool)] [.leaf (.bool none true)]], false⟩ = some (txt "trueyestrue") := by decide +kernel

/-- `to_u8string.with(alt_bool)(join_center(9, '*')(bool_wrapper{true}, false), center(true, 7, '.'))`: the theorems apply to it. -/
def aUCall : UCall Unit Bool where
  withs := [altBool]
  facets := []
  args := [.alignedJoin ⟨0x2A, .center, 9 * 65536⟩ [.user true, .leaf (.bool none false)], .leaf (.bool (some [.fill 0x2E, .center (7 * 65536)]) true)]
  eol := false

theorem aUCall_means : ∃ ms, aUCall.Means .char8 myClasses YesNo 0 ms ∧ aUCall.text ms = txt "*[yes]no*..yes.." := by
  have hw : ∀ (fp : UPack Unit), (∀ tag U, applicable (Cat.charset U) tag (writtenAll (stdAll fp)) = []) →
      CharsetsAre (stdAll fp) (fun U => ⟨Program.utfOf U, true⟩) := fun fp h tag U => .inr ⟨h tag U, rfl⟩
  have ho : Overrides aUCall.pack (.std .bool) () := .inl ⟨[], rfl⟩
  have all : ∃ ms, UDenoteAll .char8 myClasses YesNo (fun U => ⟨Program.utfOf U, true⟩) aUCall.pack 0 aUCall.args ms := by
    refine ⟨_, .cons (.alignedJoin 2 (by decide) (by decide) (.cons (.user (.inr (.inr ⟨rfl, rfl⟩)) rfl (.arg ?_ (hw _ fun _ _ => rfl)
      (.join (.cons (.leaf (.inl (by simp [Leaf.Overridable])) (.rawChr .std (.inr ⟨rfl, rfl⟩) (.inl rfl) (by decide)))
        (.cons (.overridden () trivial ho rfl (.printer rfl)) (.cons (.leaf (.inl (by simp [Leaf.Overridable])) (.rawChr .std (.inr ⟨rfl, rfl⟩) (.inl rfl) (by decide))) .nil))))))
      (.cons (.overridden () trivial ho rfl (.printer rfl)) .nil)) ?_ ?_ ?_ ?_)
      (.cons (.overridden () trivial ho rfl (.arg ?_ (hw _ fun _ _ => rfl) (.alignedJoin 4 (by decide) (by decide)
        (.cons (.overridden () trivial (.inl ⟨[.overrider (.std .bool) ()], rfl⟩) rfl (.printer rfl)) .nil) ?_ ?_ ?_ ?_))) .nil)⟩
    · simp [UAllTyped, UTyped, aUCall, UCall.pack, altBool, UFacet.cat]
    · decide +kernel
    · decide +kernel
    · decide +kernel
    · decide +kernel
    · simp [UAllTyped, UTyped, aUCall, UCall.pack, altBool, UFacet.cat, std, constrainable, allConstrainable]
    · decide +kernel
    · decide +kernel
    · decide +kernel
    · decide +kernel
  obtain ⟨ms, hm⟩ := all
  have hM : aUCall.Means .char8 myClasses YesNo 0 ms :=
    ⟨by simp [UAllTyped, UTyped, aUCall, UCall.pack, altBool, UFacet.cat], _, hw _ fun _ _ => rfl, hm⟩
  refine ⟨ms, hM, ?_⟩
  obtain ⟨n, its, s, hi, e, r⟩ := ucall_to_string_partial (sg := fun _ => false) myPrinters_ok hM (List.replicate 64 0) (by simp)
  have hd : uPrinted .char8 myClasses aUCall = some (txt "*[yes]no*..yes..") := by decide +kernel
  rw [uPrinted] at hd
  obtain ⟨its', h1, h2⟩ := Option.bind_eq_some_iff.mp hd
  have := (hi (max n 900) (Nat.le_max_left _ _)).symm.trans (items_le (Nat.le_max_right n 900) h1)
  cases this
  rw [e, Option.bind_some, r] at h2
  exact Option.some.inj h2

/-- the hypotheses of `only_overridden`: a number and a string, with the overrider of booleans -/
example : ∀ t ∈ allOverridables [.float .double [] 0, .int Program.intTy [] 7, .join [.str .char8 [] [0x61]]], NotOverridden altBool (.std t) := by
  intro t ht
  simp [allOverridables, overridables] at ht
  subst ht
  exact .inr ⟨rfl, rfl⟩

/-- of `endless`: an overrider that calls `strf::make_printer<CharT>(pre, facets, x)` -/
example (n : Nat) : make Maker.dest .char8 (fun _ => false) { myClasses with override := fun _ _ fp l => some (.arg fp (.leaf l)) } n altBool (.leaf (.bool none true)) = none :=
  endless () altBool (.bool none true) trivial (.inl ⟨[], rfl⟩) rfl n

end Strf.Override

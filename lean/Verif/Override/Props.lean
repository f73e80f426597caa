import Verif.Override.Model
/-!
# C90: calls with types of the user's and with overriders
-/
namespace Strf.Override
open Strf.Format
open Strf.Program (Tag Cat FacetArg Pack Arg Holds CharsetsAre Typed AllTyped constrainable allConstrainable theCharset theCalc charsets_exist arg_exact tuple_means enc_of)
open Strf.Print (Item Meaning AllMean total printPlain printCalc lineText)
open Strf.Dest (Dest Lawful Prints Maker Sized Appender Writer World Arr)
open Strf.Facets (writtenAll applicable InForce)
open Strf.Width (wmax)

variable {ω υ π : Type}

/-! ### the facets of strf -/

mutual
theorem std_written (c : Cat) (t : Tag) : (e : Facets.Fpe UCat UTag (UFacet ω)) → UTyped e →
    (applicable c t (std e).written).map UFacet.std = applicable (.std c) (.std t) e.written
  | .facet (.std d) (.std v), _ => by
    by_cases h : d = c <;> simp [std, applicable, Facets.Fpe.written, h]
  | .facet (.std d) (.dontOverride _), h => by unfold UTyped at h; exact absurd h.1 (by simp [UFacet.cat])
  | .facet (.std d) (.overrider _ _), h => by unfold UTyped at h; exact absurd h.1 (by simp [UFacet.cat])
  | .facet (.overrider d) _, _ => by simp [std, applicable, Facets.Fpe.written, writtenAll]
  | .constrained f e, h => by
    unfold UTyped at h
    have ih := std_written c t e h.2
    unfold std
    have aux : ∀ {C T V : Type} [DecidableEq C] (f : T → Bool) (l : List (C × (T → Bool) × V)) (c : C) (t : T),
        applicable c t (l.map fun x => (x.1, fun t => f t && x.2.1 t, x.2.2)) = if f t then applicable c t l else [] := by
      intro C T V _ f l c t
      unfold applicable
      by_cases hf : f t <;> simp [hf, List.filter_map, Function.comp_def, List.map_map]
    simp only [Facets.Fpe.written]
    rw [aux, aux]
    by_cases hf : f (.std t) <;> simp [hf, ih]
  | .ref e, h => by
    unfold UTyped at h
    unfold std Facets.Fpe.written
    exact std_written c t e h
  | .pack es, h => by
    unfold UTyped at h
    unfold std Facets.Fpe.written
    exact stdAll_written c t es h
theorem stdAll_written (c : Cat) (t : Tag) : (es : UPack ω) → UAllTyped es →
    (applicable c t (writtenAll (stdAll es))).map UFacet.std = applicable (.std c) (.std t) (writtenAll es)
  | [], _ => by simp [stdAll, writtenAll, applicable]
  | e :: es, h => by
    unfold UAllTyped at h
    unfold stdAll writtenAll
    rw [Facets.applicable_append, Facets.applicable_append, List.map_append, std_written c t e h.1, stdAll_written c t es h.2]
end

/-- C90: the facets of strf are selected as if the overriders were not there. -/
theorem std_facets_unaffected (fp : UPack ω) (h : UAllTyped fp) (c : Cat) (t : Tag) :
    Facets.getFacet udflt (.std c) (.std t) fp = .std (Facets.getFacet Program.dflt c t (stdAll fp)) := by
  refine InForce.unique (Facets.get_facet_exact udflt (.std c) (.std t) fp) ?_
  have hg := Facets.get_facet_exact Program.dflt c t (stdAll fp)
  have hw := stdAll_written c t fp h
  rcases hg with ⟨b, hb⟩ | ⟨hn, hd⟩
  · exact .inl ⟨b.map .std, by rw [← hw, hb]; simp⟩
  · exact .inr ⟨by rw [← hw, hn]; rfl, by rw [hd]; rfl⟩

mutual
theorem std_typed : (e : Facets.Fpe UCat UTag (UFacet ω)) → UTyped e → Typed (std e)
  | .facet (.std d) (.std v), h => by
    unfold UTyped at h
    unfold std Typed
    exact ⟨by have := h.1; simpa [UFacet.cat] using this, h.2 v rfl⟩
  | .facet (.std d) (.dontOverride _), _ => by simp [std, Typed, AllTyped]
  | .facet (.std d) (.overrider _ _), _ => by simp [std, Typed, AllTyped]
  | .facet (.overrider d) _, _ => by simp [std, Typed, AllTyped]
  | .constrained f e, h => by
    unfold UTyped at h
    unfold std Typed
    exact ⟨h.1, std_typed e h.2⟩
  | .ref e, h => by
    unfold UTyped at h
    unfold std Typed
    exact std_typed e h
  | .pack es, h => by
    unfold UTyped at h
    unfold std Typed
    exact stdAll_typed es h
theorem stdAll_typed : (es : UPack ω) → UAllTyped es → AllTyped (stdAll es)
  | [], _ => by simp [stdAll, AllTyped]
  | e :: es, h => by
    unfold UAllTyped at h
    unfold stdAll AllTyped
    exact ⟨std_typed e h.1, stdAll_typed es h.2⟩
end

theorem stdAll_append (a b : UPack ω) : stdAll (a ++ b) = stdAll a ++ stdAll b := by
  induction a with
  | nil => rfl
  | cons e a ih => simp [stdAll, ih]

/-! ### who prints -/

theorem overrides_get {fp : UPack ω} {tag : UTag} {o : ω} (h : Overrides fp tag o) : theOverrider fp true tag = some o := by
  unfold theOverrider
  rw [if_pos rfl, InForce.unique (Facets.get_facet_exact udflt (.overrider tag) tag fp) h]

theorem notOverridden_get {fp : UPack ω} {tag : UTag} (h : NotOverridden fp tag) (b : Bool) : theOverrider fp b tag = none := by
  unfold theOverrider
  rw [InForce.unique (Facets.get_facet_exact udflt (.overrider tag) tag fp) h]
  cases b <;> rfl

theorem overridable_iff (l : Leaf) : l.overridable = true ↔ l.Overridable := by
  cases l <;> simp [Leaf.overridable, Leaf.Overridable]

variable {σ : Type} {D : Dest Nat σ} {Rep : σ → List Nat → Prop} {T : CharT} {sg : CharT → Bool} {cl : Classes ω υ π} {M : π → Int → Meaning → Prop}

theorem makeEach_mono {α β : Type} {f g : α → Option β} (h : ∀ a b, f a = some b → g a = some b) : ∀ (l : List α) (r : List β),
    makeEach f l = some r → makeEach g l = some r := by
  intro l
  induction l with
  | nil => intro r e; exact e
  | cons a l ih =>
    intro r e
    unfold makeEach at e ⊢
    obtain ⟨b, hb, e⟩ := Option.bind_eq_some_iff.mp e
    obtain ⟨bs, hbs, rfl⟩ := Option.map_eq_some_iff.mp e
    rw [h a b hb, ih bs hbs]; rfl

/-- C90: a greater depth of instantiations changes nothing. -/
theorem make_mono : ∀ (n : Nat) (fp : UPack ω) (a : UArg ω υ) (it : Item σ), make D T sg cl n fp a = some it → make D T sg cl (n + 1) fp a = some it := by
  intro n
  induction n with
  | zero => intro fp a it e; simp [make] at e
  | succ n ih =>
    have hb : ∀ (b : Option (Body ω υ π)) (it : Item σ), (b.bind fun
        | .arg fp a => make D T sg cl n fp a
        | .printer p => some (cl.printer D p)) = some it → (b.bind fun
        | .arg fp a => make D T sg cl (n + 1) fp a
        | .printer p => some (cl.printer D p)) = some it := by
      intro b it e
      obtain ⟨b, rfl, e⟩ := Option.bind_eq_some_iff.mp e
      cases b with
      | arg fp a => exact ih fp a it e
      | printer p => exact e
    have he : ∀ (fp : UPack ω) (args : List (UArg ω υ)) (f : List (Item σ) → Item σ) (it : Item σ),
        (makeEach (make D T sg cl n fp) args).map f = some it → (makeEach (make D T sg cl (n + 1) fp) args).map f = some it := by
      intro fp args f it e
      obtain ⟨r, hr, e⟩ := Option.map_eq_some_iff.mp e
      rw [makeEach_mono (ih fp) args r hr]
      simp [e]
    intro fp a it e
    cases a with
    | leaf l =>
      rw [make] at e ⊢
      cases ho : theOverrider fp l.overridable (.std l.tag) with
      | none => rw [ho] at e; exact e
      | some o => rw [ho] at e; exact hb _ _ e
    | user u =>
      rw [make] at e ⊢
      cases ho : theOverrider fp (cl.overridable u) (.user (cl.type u)) with
      | none => rw [ho] at e; exact hb _ _ e
      | some o => rw [ho] at e; exact hb _ _ e
    | join args => rw [make] at e ⊢; exact he _ _ _ _ e
    | alignedJoin al args => rw [make] at e ⊢; exact he _ _ _ _ e
    | range args => rw [make] at e ⊢; exact he _ _ _ _ e
    | separatedRange fmt sep args => rw [make] at e ⊢; exact he _ _ _ _ e
    | tr str args => rw [make] at e ⊢; exact he _ _ _ _ e
    | inner fs args =>
      rw [make] at e ⊢
      by_cases hc : allConstrainable (stdAll fs) = true
      · rw [if_pos hc] at e ⊢; exact he _ _ _ _ e
      · rw [if_neg hc] at e; cases e

theorem make_le {n k : Nat} (h : n ≤ k) {fp : UPack ω} {a : UArg ω υ} {it : Item σ} (e : make D T sg cl n fp a = some it) :
    make D T sg cl k fp a = some it := by
  induction h with
  | refl => exact e
  | step _ ih => exact make_mono _ _ _ _ ih

theorem makeEach_le {n k : Nat} (h : n ≤ k) {fp : UPack ω} {as : List (UArg ω υ)} {its : List (Item σ)}
    (e : makeEach (make D T sg cl n fp) as = some its) : makeEach (make D T sg cl k fp) as = some its :=
  makeEach_mono (fun _ _ e => make_le h e) as its e

mutual
/-- C90: an argument that means something compiles, and its printer prints what it means. -/
theorem uarg_exact (L : Lawful D Rep) (HM : ∀ p B m, M p B m → (cl.printer D p).Means τ D Rep B m) :
    {K : CharT → CharsetArg} → {fp : UPack ω} → {B : Int} → {a : UArg ω υ} → {m : Meaning} → UDenotes T cl M K fp B a m →
    UAllTyped fp → CharsetsAre (stdAll fp) K → ∃ n it, make D T sg cl n fp a = some it ∧ it.Means τ D Rep B m
  | K, fp, B, _, m, @UDenotes.leaf _ _ _ _ _ _ _ _ _ l _ hn hd, ht, hch => by
    obtain ⟨K', hch', hK'⟩ := charsets_exist (stdAll fp) (stdAll_typed fp ht)
    have hK : ∀ U, (K U).name.unitSize = U.size := by
      rw [← (hch'.fn .void).symm.trans (hch.fn .void)]; exact hK'
    obtain ⟨it, hi, hm⟩ := arg_exact (sg := sg) L hK hd hch (stdAll fp) rfl
    refine ⟨1, it, ?_, hm⟩
    have : theOverrider fp l.overridable (.std l.tag) = none := by
      rcases hn with hn | hn
      · have : l.overridable = false := by
          cases h : l.overridable with
          | false => rfl
          | true => exact absurd ((overridable_iff l).mp h) hn
        rw [this]; rfl
      · exact notOverridden_get hn _
    rw [make]
    rw [this]
    exact hi
  | K, fp, B, _, m, @UDenotes.overridden _ _ _ _ _ _ _ _ _ l _ b o ho hov hb hd, ht, hch => by
    obtain ⟨n, it, e, hm⟩ := body_exact L HM hd
    refine ⟨n + 1, it, ?_, hm⟩
    rw [make]
    rw [(overridable_iff l).mpr ho, overrides_get hov]
    dsimp only
    rw [hb]
    cases b <;> exact e
  | K, fp, B, _, m, @UDenotes.user _ _ _ _ _ _ _ _ _ u _ b hn hb hd, ht, hch => by
    obtain ⟨n, it, e, hm⟩ := body_exact L HM hd
    refine ⟨n + 1, it, ?_, hm⟩
    have : theOverrider fp (cl.overridable u) (.user (cl.type u)) = none := by
      rcases hn with hn | hn
      · rw [hn]; rfl
      · exact notOverridden_get hn _
    rw [make]
    rw [this]
    rw [hb]
    cases b <;> exact e
  | K, fp, B, _, m, @UDenotes.userOverridden _ _ _ _ _ _ _ _ _ u _ b o ho hov hb hd, ht, hch => by
    obtain ⟨n, it, e, hm⟩ := body_exact L HM hd
    refine ⟨n + 1, it, ?_, hm⟩
    rw [make]
    rw [ho, overrides_get hov]
    dsimp only
    rw [hb]
    cases b <;> exact e
  | K, fp, B, _, _, .join h, ht, hch => by
    obtain ⟨n, its, hi, hm⟩ := uargs_exact L HM h ht hch
    exact ⟨n + 1, _, by rw [make]; rw [hi]; rfl, Print.join_means L hm⟩
  | K, fp, B, _, _, .alignedJoin k h0 h1 h h2 h3 h4 h5, ht, hch => by
    obtain ⟨n, its, hi, hm⟩ := uargs_exact L HM h ht hch
    refine ⟨n + 1, _, by rw [make]; rw [hi]; rfl, ?_⟩
    rw [hch.fn, ← enc_of D]
    exact Print.alignedJoin_means L (charset_lawful L (K T).name) _ k h0 h1 hm h2 h3 h4 h5
  | K, fp, B, _, _, .range h, ht, hch => by
    obtain ⟨n, its, hi, hm⟩ := uargs_exact L HM h ht hch
    exact ⟨n + 1, _, by rw [make]; rw [hi]; rfl, Print.range_means L hm⟩
  | K, fp, B, _, _, @UDenotes.separatedRange _ _ _ _ _ _ _ _ _ fmt sep args ms wc hwc hu hf hlen h, ht, hch => by
    obtain ⟨K', hch', hK'⟩ := charsets_exist (stdAll fp) (stdAll_typed fp ht)
    have hK : ∀ U, (K U).name.unitSize = U.size := by
      rw [← (hch'.fn .void).symm.trans (hch.fn .void)]; exact hK'
    obtain ⟨n, its, hi, hm⟩ := uargs_exact L HM h ht hch
    refine ⟨n + 1, _, by rw [make]; rw [hi]; rfl, ?_⟩
    rw [hch.fn, hwc.calc]
    have := Print.separated_means (D := D) (Rep := Rep) L (wc.measures (sg T) (K T).name.cs) (sep := sep) ⟨cs_units (hK T) hu, hf⟩ hm hlen
    cases fmt
    · exact this.1
    · exact this.2
  | K, fp, B, _, _, .tr wc hwc hr hok h hroom, ht, hch => by
    obtain ⟨n, its, hi, hm⟩ := uargs_exact L HM h ht hch
    refine ⟨n + 1, _, by rw [make]; rw [hi]; rfl, ?_⟩
    rw [hch.fn, hwc.calc]
    exact Print.tr_exact L (K T).name.cs wc (sg T) B hm hroom hr hok
  | K, fp, B, _, _, @UDenotes.inner _ _ _ _ _ _ _ _ _ fs args ms h1 h2 h, ht, hch => by
    have ht' : UAllTyped ([.pack fp, .pack fs] : UPack ω) := by simp [UAllTyped, UTyped, ht, h1]
    have hch' : CharsetsAre (stdAll ([.pack fp, .pack fs] : UPack ω)) K :=
      (hch.append (stdAll_typed fs h1) h2).congr (by rw [Facets.writtenAll_append]; simp [stdAll, std, writtenAll, Facets.Fpe.written])
    obtain ⟨n, its, hi, hm⟩ := uargs_exact L HM h ht' hch'
    refine ⟨n + 1, _, ?_, tuple_means L hm⟩
    rw [make]
    rw [if_pos h2, show Facets.childFacets fp fs = [.pack fp, .pack fs] from rfl, hi]
    rfl
theorem body_exact (L : Lawful D Rep) (HM : ∀ p B m, M p B m → (cl.printer D p).Means τ D Rep B m) :
    {B : Int} → {b : Body ω υ π} → {m : Meaning} → BodyDenotes T cl M B b m →
    ∃ n it, (match b with
      | .arg fp a => make D T sg cl n fp a
      | .printer p => some (cl.printer D p)) = some it ∧ it.Means τ D Rep B m
  | B, _, m, .arg ht hch h => by
    obtain ⟨n, it, e, hm⟩ := uarg_exact L HM h ht hch
    exact ⟨n, it, e, hm⟩
  | B, _, m, .printer h => ⟨0, _, rfl, HM _ _ _ h⟩
theorem uargs_exact (L : Lawful D Rep) (HM : ∀ p B m, M p B m → (cl.printer D p).Means τ D Rep B m) :
    {K : CharT → CharsetArg} → {fp : UPack ω} → {B : Int} → {as : List (UArg ω υ)} → {ms : List Meaning} → UDenoteAll T cl M K fp B as ms →
    UAllTyped fp → CharsetsAre (stdAll fp) K → ∃ n its, makeEach (make D T sg cl n fp) as = some its ∧ AllMean τ D Rep B its ms
  | _, _, _, _, _, .nil, _, _ => ⟨0, [], rfl, .nil⟩
  | _, _, _, _, _, .cons h hs, ht, hch => by
    obtain ⟨n, it, e, hm⟩ := uarg_exact L HM h ht hch
    obtain ⟨k, its, es, hms⟩ := uargs_exact L HM hs ht hch
    refine ⟨max n k, it :: its, ?_, .cons hm hms⟩
    unfold makeEach
    rw [make_le (Nat.le_max_left n k) e, makeEach_le (Nat.le_max_right n k) es]
    rfl
end

end Strf.Override

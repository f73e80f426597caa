import Verif.Direct.Props
/-!
# C91: classes with `print`: the arguments
-/
namespace Strf.Direct
open Strf.Format
open Strf.Program (Tag Cat FacetArg Pack Arg Holds CharsetsAre allConstrainable theCharset theCalc charsets_exist arg_exact tuple_means enc_of)
open Strf.Print (Item Meaning AllMean Pre total printAll ArgsPrint)
open Strf.Dest (Dest Lawful Prints)
open Strf.Width (wmax)
open Strf.Override

variable {ω υ π ρ σ : Type} {D : Dest Nat σ} {Rep : σ → List Nat → Prop} {T : CharT} {sg : CharT → Bool} {cl : PClasses ω υ π ρ}
  {M : π → Int → Meaning → Prop} {W : ρ → List Nat → Prop}

/-- how a class is called: the local function of `gen` -/
def cls (D : Dest Nat σ) (T : CharT) (sg : CharT → Bool) (cl : PClasses ω υ π ρ) (n : Nat) (md : Mode) (mk : Option (Body ω υ π)) (pr : Option (PBody ω υ ρ)) : Option (Item σ) :=
  (md.choose mk.isSome pr.isSome).bind fun b =>
    if b then pr.bind fun
      | .call fp args => (makeEach (gen D T sg cl n (.nothing .direct) (Facets.callFacets (Facets.withAll [] [fp]) [])) args).map fun its => only (printAll D its)
      | .own r => some (only (cl.own D r))
    else mk.bind fun
      | .arg fp a => gen D T sg cl n md.inside fp a
      | .printer p => some (cl.printer D p)

theorem only_writes {pr : σ → Option σ} {t : List Nat} (h : Prints τ D Rep pr t) : Writes τ D Rep (only pr) t := ⟨pr, rfl, h⟩

mutual
/-- C91: an argument that says something compiles if nothing is premeasured, and writes what it says. -/
theorem says_exact (L : Lawful D Rep) (HM : ∀ p B m, M p B m → (cl.printer D p).Means τ D Rep B m) (HW : ∀ r t, W r t → Prints τ D Rep (cl.own D r) t) :
    {h : How} → {K : CharT → CharsetArg} → {fp : UPack ω} → {a : UArg ω υ} → {t : List Nat} → Says T cl M W h K fp a t →
    UAllTyped fp → CharsetsAre (stdAll fp) K → ∃ n it, gen D T sg cl n (.nothing h) fp a = some it ∧ Writes τ D Rep it t
  | h, K, fp, _, _, .leaf B hn hd, ht, hch => by
    obtain ⟨it, e, hm⟩ := leaf_exact (sg := sg) L hd ht hch
    exact ⟨1, it, by rw [gen]; rw [leaf_none hn]; exact e, writes_of_means hm⟩
  | h, K, fp, _, t, @Says.overridden _ _ _ _ _ _ _ _ _ _ _ l _ o ho hov hd, ht, hch => by
    obtain ⟨n, it, e, hw⟩ := class_exact L HM HW hd
    exact ⟨n + 1, it, by rw [gen]; rw [(overridable_iff l).mpr ho, overrides_get hov]; exact e, hw⟩
  | h, K, fp, _, t, .user hn hd, ht, hch => by
    obtain ⟨n, it, e, hw⟩ := class_exact L HM HW hd
    exact ⟨n + 1, it, by rw [gen]; rw [user_none hn]; exact e, hw⟩
  | h, K, fp, _, t, .userOverridden o ho hov hd, ht, hch => by
    obtain ⟨n, it, e, hw⟩ := class_exact L HM HW hd
    exact ⟨n + 1, it, by rw [gen]; rw [ho, overrides_get hov]; exact e, hw⟩
  | h, K, fp, _, _, .join hs, ht, hch => by
    obtain ⟨n, its, hi, hw⟩ := sayAll_exact L HM HW hs ht hch
    exact ⟨n + 1, _, by rw [gen]; rw [hi]; rfl, hw.join L⟩
  | h, K, fp, _, _, .range hs, ht, hch => by
    obtain ⟨n, its, hi, hw⟩ := sayAll_exact L HM HW hs ht hch
    exact ⟨n + 1, _, by rw [gen]; dsimp only; rw [hi]; rfl, hw.range L⟩
  | h, K, fp, _, _, @Says.separatedRange _ _ _ _ _ _ _ _ _ _ _ fmt sep args ts hs, ht, hch => by
    obtain ⟨n, its, hi, hw⟩ := sayAll_exact L HM HW hs ht hch
    refine ⟨n + 1, _, by rw [gen]; dsimp only; rw [hi]; rfl, ?_⟩
    cases fmt
    · exact ⟨_, rfl, hw.sepPrint L sep⟩
    · exact ⟨_, rfl, hw.sepPrint L sep⟩
  | h, K, fp, _, _, @Says.alignedJoin _ _ _ _ _ _ _ _ _ _ _ args a ms k B h0 h1 hB hs h2 h3 h4, ht, hch => by
    obtain ⟨n, its, hi, hm⟩ := meanAll_exact L HM HW hs ht hch
    refine ⟨n + 1, _, by rw [gen]; rw [hi]; rfl, ?_⟩
    have hm := hm.mono hB
    have hz : max 0 a.width = a.width := by omega
    have hn := hm.nonneg
    have := Print.alignedJoin_means (B := 0) L (charset_lawful L (K T).name) a k h0 h1 (by rw [hz]; exact hm) (by rw [hz]; exact h2) h3 (by rw [hz]; exact h4) (by rw [hz]; omega)
    rw [hch.fn]
    have := writes_of_means this
    rw [enc_of D] at this
    exact this
  | h, K, fp, _, _, @Says.tr _ _ _ _ _ _ _ _ _ _ _ str args ts segs hr hs, ht, hch => by
    obtain ⟨n, its, hi, hw⟩ := sayAll_exact L HM HW hs ht hch
    refine ⟨n + 1, _, by rw [gen]; rw [show Mode.inside (.nothing h) = .nothing .printer from rfl, hi]; rfl, ?_⟩
    rw [hch.fn]
    exact hw.tr L (K T).name.cs _ hr
  | h, K, fp, _, _, @Says.inner _ _ _ _ _ _ _ _ _ _ _ fs args ts h1 h2 hs, ht, hch => by
    obtain ⟨ht', hch'⟩ := inner_facets ht hch h1 h2
    obtain ⟨n, its, hi, hw⟩ := sayAll_exact L HM HW hs ht' hch'
    refine ⟨n + 1, _, ?_, hw.tuple L⟩
    rw [gen]
    rw [if_pos h2, show Facets.childFacets fp fs = [.pack fp, .pack fs] from rfl, show Mode.inside (.nothing h) = .nothing .printer from rfl, hi]
    rfl
theorem class_exact (L : Lawful D Rep) (HM : ∀ p B m, M p B m → (cl.printer D p).Means τ D Rep B m) (HW : ∀ r t, W r t → Prints τ D Rep (cl.own D r) t) :
    {h : How} → {mk : Option (Body ω υ π)} → {pr : Option (PBody ω υ ρ)} → {t : List Nat} → ClassSays T cl M W h mk pr t →
    ∃ n it, cls D T sg cl n (.nothing h) mk pr = some it ∧ Writes τ D Rep it t
  | h, _, pr, t, @ClassSays.makeArg _ _ _ _ _ _ _ _ _ _ _ fp a _ hc ht hch hs => by
    obtain ⟨n, it, e, hw⟩ := says_exact L HM HW hs ht hch
    refine ⟨n, it, ?_, hw⟩
    unfold cls
    rw [show (some (Body.arg fp a) : Option (Body ω υ π)).isSome = true from rfl, hc.choose]
    exact e
  | h, _, pr, _, @ClassSays.makePrinter _ _ _ _ _ _ _ _ _ _ p m B hc hm => by
    refine ⟨0, cl.printer D p, ?_, writes_of_means (HM p B m hm)⟩
    unfold cls
    rw [show (some (Body.printer p) : Option (Body ω υ π)).isSome = true from rfl, hc.choose]
    rfl
  | h, mk, _, _, @ClassSays.printCall _ _ _ _ _ _ _ _ _ _ _ fp args ts hc ht hch hs => by
    obtain ⟨ht', hch'⟩ := pack_facets ht hch
    obtain ⟨n, its, hi, hw⟩ := sayAll_exact L HM HW hs ht' hch'
    refine ⟨n, only (printAll D its), ?_, only_writes (hw.printAll L)⟩
    unfold cls
    rw [show (some (PBody.call fp args) : Option (PBody ω υ ρ)).isSome = true from rfl, hc.choose]
    simp only [Option.bind_some, if_true]
    rw [callPack_with, hi]
    rfl
  | h, mk, _, t, @ClassSays.printOwn _ _ _ _ _ _ _ _ _ _ r _ hc hw => by
    refine ⟨0, only (cl.own D r), ?_, only_writes (HW r t hw)⟩
    unfold cls
    rw [show (some (PBody.own r) : Option (PBody ω υ ρ)).isSome = true from rfl, hc.choose]
    rfl
theorem sayAll_exact (L : Lawful D Rep) (HM : ∀ p B m, M p B m → (cl.printer D p).Means τ D Rep B m) (HW : ∀ r t, W r t → Prints τ D Rep (cl.own D r) t) :
    {h : How} → {K : CharT → CharsetArg} → {fp : UPack ω} → {as : List (UArg ω υ)} → {ts : List (List Nat)} → SayAll T cl M W h K fp as ts →
    UAllTyped fp → CharsetsAre (stdAll fp) K → ∃ n its, makeEach (gen D T sg cl n (.nothing h) fp) as = some its ∧ AllWrite τ D Rep its ts
  | _, _, _, _, _, .nil, _, _ => ⟨0, [], rfl, .nil⟩
  | _, _, _, _, _, .cons h hs, ht, hch => by
    obtain ⟨n, it, e, hw⟩ := says_exact L HM HW h ht hch
    obtain ⟨k, its, es, hws⟩ := sayAll_exact L HM HW hs ht hch
    refine ⟨max n k, it :: its, ?_, .cons hw hws⟩
    unfold makeEach
    rw [gen_le (Nat.le_max_left n k) e, genEach_le (Nat.le_max_right n k) es]
    rfl
/-- C91: an argument that means something compiles where it is measured, and its printer prints what it means. -/
theorem means_exact (L : Lawful D Rep) (HM : ∀ p B m, M p B m → (cl.printer D p).Means τ D Rep B m) (HW : ∀ r t, W r t → Prints τ D Rep (cl.own D r) t) :
    {K : CharT → CharsetArg} → {fp : UPack ω} → {B : Int} → {a : UArg ω υ} → {m : Meaning} → Means T cl M W K fp B a m →
    UAllTyped fp → CharsetsAre (stdAll fp) K → ∃ n it, gen D T sg cl n .something fp a = some it ∧ it.Means τ D Rep B m
  | K, fp, B, _, _, .leaf hn hd, ht, hch => by
    obtain ⟨it, e, hm⟩ := leaf_exact (sg := sg) L hd ht hch
    exact ⟨1, it, by rw [gen]; rw [leaf_none hn]; exact e, hm⟩
  | K, fp, B, _, _, @Means.overridden _ _ _ _ _ _ _ _ _ _ _ l _ b o ho hov hb hd, ht, hch => by
    obtain ⟨n, it, e, hm⟩ := bodyMeans_exact L HM HW hd
    refine ⟨n + 1, it, ?_, hm⟩
    rw [gen]; rw [(overridable_iff l).mpr ho, overrides_get hov]
    show cls D T sg cl n .something (cl.override o T fp l) (cl.printOver o T fp l) = some it
    rw [hb]
    exact e _
  | K, fp, B, _, _, @Means.user _ _ _ _ _ _ _ _ _ _ _ u _ b hn hb hd, ht, hch => by
    obtain ⟨n, it, e, hm⟩ := bodyMeans_exact L HM HW hd
    refine ⟨n + 1, it, ?_, hm⟩
    rw [gen]; rw [user_none hn]
    show cls D T sg cl n .something (cl.define u T fp) (cl.printDef u T fp) = some it
    rw [hb]
    exact e _
  | K, fp, B, _, _, @Means.userOverridden _ _ _ _ _ _ _ _ _ _ _ u _ b o ho hov hb hd, ht, hch => by
    obtain ⟨n, it, e, hm⟩ := bodyMeans_exact L HM HW hd
    refine ⟨n + 1, it, ?_, hm⟩
    rw [gen]; rw [ho, overrides_get hov]
    show cls D T sg cl n .something (cl.overrideUser o T fp u) (cl.printOverUser o T fp u) = some it
    rw [hb]
    exact e _
  | K, fp, B, _, _, .join h, ht, hch => by
    obtain ⟨n, its, hi, hm⟩ := meanAll_exact L HM HW h ht hch
    exact ⟨n + 1, _, by rw [gen]; rw [hi]; rfl, Print.join_means L hm⟩
  | K, fp, B, _, _, .alignedJoin k h0 h1 h h2 h3 h4 h5, ht, hch => by
    obtain ⟨n, its, hi, hm⟩ := meanAll_exact L HM HW h ht hch
    refine ⟨n + 1, _, by rw [gen]; rw [hi]; rfl, ?_⟩
    rw [hch.fn, ← enc_of D]
    exact Print.alignedJoin_means L (charset_lawful L (K T).name) _ k h0 h1 hm h2 h3 h4 h5
  | K, fp, B, _, _, .range h hd, ht, hch => by
    obtain ⟨n, its, hi, hm⟩ := meanAll_exact L HM HW h ht hch
    obtain ⟨k, ds, hk, hw⟩ := sayAll_exact L HM HW hd ht hch
    refine ⟨max n k + 1, _, ?_, Print.range_means L (splitAll_means hm hw)⟩
    rw [gen]
    dsimp only
    rw [genEach_le (Nat.le_max_left n k) hi, genEach_le (Nat.le_max_right n k) hk]
    rfl
  | K, fp, B, _, _, @Means.separatedRange _ _ _ _ _ _ _ _ _ _ _ fmt sep args ms wc hwc hu hf hlen h hd, ht, hch => by
    obtain ⟨K', hch', hK'⟩ := charsets_exist (stdAll fp) (stdAll_typed fp ht)
    have hK : ∀ U, (K U).name.unitSize = U.size := by
      rw [← (hch'.fn .void).symm.trans (hch.fn .void)]; exact hK'
    obtain ⟨n, its, hi, hm⟩ := meanAll_exact L HM HW h ht hch
    obtain ⟨k, ds, hk, hw⟩ := sayAll_exact L HM HW hd ht hch
    refine ⟨max n k + 1, _, by
      rw [gen]
      dsimp only
      rw [genEach_le (Nat.le_max_left n k) hi, genEach_le (Nat.le_max_right n k) hk]
      rfl, ?_⟩
    rw [hch.fn, hwc.calc]
    have := Print.separated_means (D := D) (Rep := Rep) L (wc.measures (sg T) (K T).name.cs) (sep := sep) ⟨cs_units (hK T) hu, hf⟩ (splitAll_means hm hw) hlen
    cases fmt
    · exact this.1
    · exact this.2
  | K, fp, B, _, _, .tr wc hwc hr hok h hroom, ht, hch => by
    obtain ⟨n, its, hi, hm⟩ := meanAll_exact L HM HW h ht hch
    refine ⟨n + 1, _, by rw [gen]; rw [show Mode.inside .something = .something from rfl, hi]; rfl, ?_⟩
    rw [hch.fn, hwc.calc]
    exact Print.tr_exact L (K T).name.cs wc (sg T) B hm hroom hr hok
  | K, fp, B, _, _, @Means.inner _ _ _ _ _ _ _ _ _ _ _ fs args ms h1 h2 h, ht, hch => by
    obtain ⟨ht', hch'⟩ := inner_facets ht hch h1 h2
    obtain ⟨n, its, hi, hm⟩ := meanAll_exact L HM HW h ht' hch'
    refine ⟨n + 1, _, ?_, tuple_means L hm⟩
    rw [gen]
    rw [if_pos h2, show Facets.childFacets fp fs = [.pack fp, .pack fs] from rfl, show Mode.inside .something = .something from rfl, hi]
    rfl
theorem bodyMeans_exact (L : Lawful D Rep) (HM : ∀ p B m, M p B m → (cl.printer D p).Means τ D Rep B m) (HW : ∀ r t, W r t → Prints τ D Rep (cl.own D r) t) :
    {B : Int} → {b : Body ω υ π} → {m : Meaning} → BodyMeans T cl M W B b m →
    ∃ n it, (∀ pr, cls D T sg cl n .something (some b) pr = some it) ∧ it.Means τ D Rep B m
  | B, _, m, .arg ht hch h => by
    obtain ⟨n, it, e, hm⟩ := means_exact L HM HW h ht hch
    exact ⟨n, it, fun pr => e, hm⟩
  | B, _, m, @BodyMeans.printer _ _ _ _ _ _ _ _ _ p _ h => ⟨0, cl.printer D p, fun _ => rfl, HM _ _ _ h⟩
theorem meanAll_exact (L : Lawful D Rep) (HM : ∀ p B m, M p B m → (cl.printer D p).Means τ D Rep B m) (HW : ∀ r t, W r t → Prints τ D Rep (cl.own D r) t) :
    {K : CharT → CharsetArg} → {fp : UPack ω} → {B : Int} → {as : List (UArg ω υ)} → {ms : List Meaning} → MeanAll T cl M W K fp B as ms →
    UAllTyped fp → CharsetsAre (stdAll fp) K → ∃ n its, makeEach (gen D T sg cl n .something fp) as = some its ∧ AllMean τ D Rep B its ms
  | _, _, _, _, _, .nil, _, _ => ⟨0, [], rfl, .nil⟩
  | _, _, _, _, _, .cons h hs, ht, hch => by
    obtain ⟨n, it, e, hm⟩ := means_exact L HM HW h ht hch
    obtain ⟨k, its, es, hms⟩ := meanAll_exact L HM HW hs ht hch
    refine ⟨max n k, it :: its, ?_, .cons hm hms⟩
    unfold makeEach
    rw [gen_le (Nat.le_max_left n k) e, genEach_le (Nat.le_max_right n k) es]
    rfl
end

end Strf.Direct

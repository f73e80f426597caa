import Verif.Direct.Model
/-!
# C91: classes with `print`
-/
namespace Strf.Direct
open Strf.Format
open Strf.Program (Tag Cat FacetArg Pack Arg Holds CharsetsAre allConstrainable theCharset theCalc charsets_exist arg_exact tuple_means enc_of)
open Strf.Print (Item Meaning AllMean Pre total printAll ArgsPrint)
open Strf.Dest (Dest Lawful Prints)
open Strf.Width (wmax)
open Strf.Override

variable {ω υ π ρ σ : Type} {D : Dest Nat σ} {Rep : σ → List Nat → Prop} {T : CharT} {sg : CharT → Bool} {cl : PClasses ω υ π ρ}
  {M : π → Int → Meaning → Prop} {W : ρ → List Nat → Prop}

/-! ### items that are printed without premeasurements -/

/-- Without premeasurements the item writes the text. -/
def Writes (τ : Bool) (D : Dest Nat σ) (Rep : σ → List Nat → Prop) (it : Item σ) (t : List Nat) : Prop :=
  ∃ pr, it.make .nothing = some (.nothing, pr) ∧ Prints τ D Rep pr t

inductive AllWrite (τ : Bool) (D : Dest Nat σ) (Rep : σ → List Nat → Prop) : List (Item σ) → List (List Nat) → Prop
  | nil : AllWrite τ D Rep [] []
  | cons {it its t ts} : Writes τ D Rep it t → AllWrite τ D Rep its ts → AllWrite τ D Rep (it :: its) (t :: ts)

theorem idle_iff {p : Pre} : p.idle = true ↔ p = .nothing := by
  obtain ⟨s, a⟩ := p
  cases s <;> cases a <;> simp [Pre.idle, Pre.nothing]

theorem writes_of_means {B : Int} {it : Item σ} {m : Meaning} (h : it.Means τ D Rep B m) : Writes τ D Rep it m.text := by
  obtain ⟨p', pr, e, hp, g1, g2, _⟩ := h.2.2.2 .nothing (by intro a ha; cases ha)
  have : p' = .nothing := by
    obtain ⟨s, a⟩ := p'
    simp only [Pre.nothing, Option.map_none] at g1 g2 ⊢
    rw [g1, g2 trivial]
  exact ⟨pr, by rw [e, this], hp⟩

theorem Writes.prints {it : Item σ} {t : List Nat} (h : Writes τ D Rep it t) : Prints τ D Rep it.print t := by
  obtain ⟨pr, e, hp⟩ := h
  unfold Item.print
  rw [e]
  exact hp

/-- what it would be if it could be measured -/
def measurable (it : Item σ) (t : List Nat) : Item σ := Print.fixed ((0 : Nat) : Int) t.length it.print

theorem measurable_means {it : Item σ} {t : List Nat} (h : Writes τ D Rep it t) (B : Int) : (measurable it t).Means τ D Rep B (.ofColumns t 0) :=
  Print.fixed_means B 0 _ rfl _ rfl h.prints

theorem measurable_make (it : Item σ) (t : List Nat) : (measurable it t).make .nothing = some (.nothing, it.print) := by
  simp [measurable, Print.fixed, Print.addBoth, Pre.addWidth, Pre.nothing, Pre.addSize]

theorem measurable_print (it : Item σ) (t : List Nat) : (measurable it t).print = it.print := by
  funext s
  show (match (measurable it t).make .nothing with | none => none | some (_, pr) => pr s) = _
  rw [measurable_make]

def measurableAll : List (Item σ) → List (List Nat) → List (Item σ)
  | it :: its, t :: ts => measurable it t :: measurableAll its ts
  | _, _ => []

/-- the meaning of a text whose width is not known -/
def plainly (ts : List (List Nat)) : List Meaning := ts.map fun t => .ofColumns t 0

theorem plainly_text (ts : List (List Nat)) : (plainly ts).map (·.text) = ts := by
  unfold plainly
  rw [List.map_map]
  exact List.map_id'' (fun _ => rfl) ts

theorem plainly_total (ts : List (List Nat)) : (total (plainly ts)).text = ts.flatten := by
  induction ts with
  | nil => rfl
  | cons t ts ih =>
    show (Meaning.ofColumns t 0).text ++ (total (plainly ts)).text = _
    rw [ih]; rfl

theorem AllWrite.means {its : List (Item σ)} {ts : List (List Nat)} (h : AllWrite τ D Rep its ts) (B : Int) :
    AllMean τ D Rep B (measurableAll its ts) (plainly ts) := by
  induction h with
  | nil => exact .nil
  | cons h1 _ ih => exact .cons (measurable_means h1 B) ih

/-- the two lists are printed the same -/
theorem AllWrite.prints_same {its : List (Item σ)} {ts : List (List Nat)} (h : AllWrite τ D Rep its ts) :
    (measurableAll its ts).map Item.print = its.map Item.print := by
  induction h with
  | nil => rfl
  | cons h1 _ ih => simp [measurableAll, measurable_print, ih]

theorem printAll_congr {a b : List (Item σ)} (h : a.map Item.print = b.map Item.print) : printAll D a = printAll D b := by
  induction a generalizing b with
  | nil => cases b with | nil => rfl | cons y b => simp at h
  | cons x a ih =>
    cases b with
    | nil => simp at h
    | cons y b =>
      simp only [List.map_cons, List.cons.injEq] at h
      funext s
      simp only [printAll, h.1, ih h.2]

theorem rangePrint_congr {a b : List (Item σ)} (h : a.map Item.print = b.map Item.print) : Print.rangePrint D a = Print.rangePrint D b := by
  induction a generalizing b with
  | nil => cases b with | nil => rfl | cons y b => simp at h
  | cons x a ih =>
    cases b with
    | nil => simp at h
    | cons y b =>
      simp only [List.map_cons, List.cons.injEq] at h
      funext s
      simp only [Print.rangePrint, h.1, ih h.2]

theorem sepPrintRest_congr (sep : List Nat) {a b : List (Item σ)} (h : a.map Item.print = b.map Item.print) :
    Print.sepPrintRest D sep a = Print.sepPrintRest D sep b := by
  induction a generalizing b with
  | nil => cases b with | nil => rfl | cons y b => simp at h
  | cons x a ih =>
    cases b with
    | nil => simp at h
    | cons y b =>
      simp only [List.map_cons, List.cons.injEq] at h
      funext s
      simp only [Print.sepPrintRest, h.1, ih h.2]

theorem sepPrint_congr (sep : List Nat) {a b : List (Item σ)} (h : a.map Item.print = b.map Item.print) : Print.sepPrint D sep a = Print.sepPrint D sep b := by
  cases a with
  | nil => cases b with | nil => rfl | cons y b => simp at h
  | cons x a =>
    cases b with
    | nil => simp at h
    | cons y b =>
      simp only [List.map_cons, List.cons.injEq] at h
      funext s
      simp only [Print.sepPrint, h.1, sepPrintRest_congr sep h.2]

theorem AllWrite.printAll (L : Lawful D Rep) {its : List (Item σ)} {ts : List (List Nat)} (h : AllWrite τ D Rep its ts) :
    Prints τ D Rep (printAll D its) ts.flatten := by
  have := (h.means 0).prints L
  rw [plainly_total, printAll_congr h.prints_same] at this
  exact this

theorem AllWrite.join (L : Lawful D Rep) {its : List (Item σ)} {ts : List (List Nat)} (h : AllWrite τ D Rep its ts) :
    Writes τ D Rep (Print.join D its) ts.flatten := ⟨_, rfl, h.printAll L⟩

theorem AllWrite.range (L : Lawful D Rep) {its : List (Item σ)} {ts : List (List Nat)} (h : AllWrite τ D Rep its ts) :
    Writes τ D Rep (Print.range D its) ts.flatten := by
  refine ⟨_, rfl, ?_⟩
  have := Print.rangePrint_prints L (h.means 0)
  rw [plainly_total, rangePrint_congr h.prints_same] at this
  exact this

theorem AllWrite.sepPrint (L : Lawful D Rep) (sep : List Nat) {its : List (Item σ)} {ts : List (List Nat)} (h : AllWrite τ D Rep its ts) :
    Prints τ D Rep (Print.sepPrint D sep its) (sep.intercalate ts) := by
  have := Print.sepPrint_prints L sep 0 (h.means 0)
  simp only [Print.separated, plainly_text] at this
  rw [sepPrint_congr sep h.prints_same] at this
  exact this

theorem AllWrite.make {its : List (Item σ)} {ts : List (List Nat)} (h : AllWrite τ D Rep its ts) :
    ∃ prs, Print.makeAll its .nothing = some (.nothing, prs) ∧
      Print.makeEach Pre.nothing.fresh its = some (prs.map fun pr => (.nothing, pr)) ∧ prs = its.map Item.print := by
  induction h with
  | nil => exact ⟨[], rfl, rfl, rfl⟩
  | @cons it its t ts h1 _ ih =>
    obtain ⟨prs, e1, e2, e3⟩ := ih
    obtain ⟨pr, e, _⟩ := h1
    have hp : it.print = pr := by funext s; unfold Item.print; rw [e]
    refine ⟨pr :: prs, ?_, ?_, by simp [hp, e3]⟩
    · unfold Print.makeAll; rw [e]; dsimp only; rw [e1]; rfl
    · unfold Print.makeEach
      rw [show Pre.nothing.fresh = Pre.nothing from rfl] at e2 ⊢
      rw [e]; simp only [Option.bind_some]; rw [e2]; rfl

theorem AllWrite.argsPrint {its : List (Item σ)} {ts : List (List Nat)} (h : AllWrite τ D Rep its ts) : ArgsPrint τ D Rep (its.map Item.print) ts := by
  have := Print.printItems (fun h => h.prints) (h.means 0)
  rw [h.prints_same, plainly_text] at this
  exact this

theorem callAll_printAll {its : List (Item σ)} : Print.callAll D (its.map Item.print) = printAll D its := by
  induction its with
  | nil => rfl
  | cons it its ih =>
    funext s
    simp only [List.map_cons, Print.callAll, Print.printAll, ih]

theorem AllWrite.tuple (L : Lawful D Rep) {its : List (Item σ)} {ts : List (List Nat)} (h : AllWrite τ D Rep its ts) :
    Writes τ D Rep (Program.tuple D its) ts.flatten := by
  obtain ⟨prs, e1, _, e3⟩ := h.make
  refine ⟨_, by unfold Program.tuple; dsimp only; rw [e1]; rfl, ?_⟩
  dsimp only
  rw [e3]
  have : Print.tuplePrint D (its.map Item.print) = Print.printAll D its := callAll_printAll
  rw [this]
  exact h.printAll L

theorem AllWrite.tr (L : Lawful D Rep) (cs : Print.Cs) (C : Print.WCalc) {its : List (Item σ)} {ts : List (List Nat)} (h : AllWrite τ D Rep its ts)
    {str : List Nat} {segs : List Tr.Seg} (hs : Tr.Reads 0 str segs) :
    Writes τ D Rep (Print.trItem D C (cs.repl D) str its) (Tr.expand ts cs.replacement 0 segs) := by
  obtain ⟨prs, _, e2, e3⟩ := h.make
  refine ⟨_, by unfold Print.trItem; dsimp only; rw [e2]; rfl, ?_⟩
  have he : ((prs.map fun pr => (Pre.nothing, pr)).map fun r => r.2) = its.map Item.print := by
    rw [List.map_map, e3]; exact List.map_id'' (fun _ => rfl) _
  rw [he]
  intro s t hrep
  obtain ⟨s', w1, w2, w3⟩ := (Print.trWrite_spec L (cs.repl_lawful L) h.argsPrint str.length (str.length + 1) str 0 0 segs (by omega)).1 (by omega) hs (s, []) t hrep
  refine ⟨s', ?_, w2, w3⟩
  unfold Print.trStringWrite
  rw [Nat.zero_min] at w1
  dsimp only
  rw [w1]; rfl

theorem split_means {B : Int} {a b : Item σ} {m : Meaning} (ha : a.Means τ D Rep B m) (hb : Writes τ D Rep b m.text) : (split a b).Means τ D Rep B m := by
  refine ⟨ha.1, ha.2.1, ha.2.2.1, ?_⟩
  intro p hp
  unfold split
  dsimp only
  by_cases hi : p.idle = true
  · rw [if_pos hi]
    have hpn := idle_iff.mp hi
    obtain ⟨pr, e, hpr⟩ := hb
    exact ⟨.nothing, pr, by rw [hpn, e], hpr, by rw [hpn]; exact Pre.Grown.nothing rfl _ _ _⟩
  · rw [if_neg hi]
    exact ha.2.2.2 p hp

theorem splitAll_means {B : Int} {as bs : List (Item σ)} {ms : List Meaning} (ha : AllMean τ D Rep B as ms) (hb : AllWrite τ D Rep bs (ms.map (·.text))) :
    AllMean τ D Rep B (splitAll as bs) ms := by
  induction ha generalizing bs with
  | nil => cases bs <;> exact .nil
  | cons h1 _ ih =>
    cases hb with
    | cons k1 ks => exact .cons (split_means h1 k1) (ih ks)

/-! ### which function is called -/

theorem How.Calls.choose {h : How} {mk pr b : Bool} (c : h.Calls mk pr b) : (Mode.nothing h).choose mk pr = some b := by
  cases c <;> rfl

/-- C91: exactly one of the functions is called, or it does not compile; it is one that exists. -/
theorem calls_exact (h : How) (mk pr b : Bool) : (Mode.nothing h).choose mk pr = some b ↔ h.Calls mk pr b := by
  refine ⟨fun e => ?_, fun c => c.choose⟩
  cases h <;> cases mk <;> cases pr <;> cases b <;> simp [Mode.choose] at e <;> constructor

/-! ### more depth -/

theorem gen_mono : ∀ (n : Nat) (md : Mode) (fp : UPack ω) (a : UArg ω υ) (it : Item σ), gen D T sg cl n md fp a = some it → gen D T sg cl (n + 1) md fp a = some it := by
  intro n
  induction n with
  | zero => intro md fp a it e; simp [gen] at e
  | succ n ih =>
    have he : ∀ {md : Mode} {fp : UPack ω} {args : List (UArg ω υ)} {f : List (Item σ) → Item σ} {it : Item σ},
        (makeEach (gen D T sg cl n md fp) args).map f = some it → (makeEach (gen D T sg cl (n + 1) md fp) args).map f = some it := by
      intro md fp args f it e
      obtain ⟨r, hr, e⟩ := Option.map_eq_some_iff.mp e
      rw [makeEach_mono (ih md fp) args r hr]
      simp [e]
    have hc : ∀ (md : Mode) (mk : Option (Body ω υ π)) (pr : Option (PBody ω υ ρ)) (it : Item σ),
        ((md.choose mk.isSome pr.isSome).bind fun b =>
          if b then pr.bind fun
            | .call fp args => (makeEach (gen D T sg cl n (.nothing .direct) (Facets.callFacets (Facets.withAll [] [fp]) [])) args).map fun its => only (printAll D its)
            | .own r => some (only (cl.own D r))
          else mk.bind fun
            | .arg fp a => gen D T sg cl n md.inside fp a
            | .printer p => some (cl.printer D p)) = some it →
        ((md.choose mk.isSome pr.isSome).bind fun b =>
          if b then pr.bind fun
            | .call fp args => (makeEach (gen D T sg cl (n + 1) (.nothing .direct) (Facets.callFacets (Facets.withAll [] [fp]) [])) args).map fun its => only (printAll D its)
            | .own r => some (only (cl.own D r))
          else mk.bind fun
            | .arg fp a => gen D T sg cl (n + 1) md.inside fp a
            | .printer p => some (cl.printer D p)) = some it := by
      intro md mk pr it e
      obtain ⟨b, hb, e⟩ := Option.bind_eq_some_iff.mp e
      rw [hb]
      simp only [Option.bind_some]
      cases b with
      | true =>
        simp only [if_true] at e ⊢
        obtain ⟨x, rfl, e⟩ := Option.bind_eq_some_iff.mp e
        cases x with
        | call fp args => exact he e
        | own r => exact e
      | false =>
        simp only [Bool.false_eq_true, if_false] at e ⊢
        obtain ⟨x, rfl, e⟩ := Option.bind_eq_some_iff.mp e
        cases x with
        | arg fp a => exact ih _ fp a it e
        | printer p => exact e
    have hel : ∀ {md : Mode} {fp : UPack ω} {args : List (UArg ω υ)} {f : List (Item σ) → Item σ} {it : Item σ},
        (match md with
          | .something => (makeEach (gen D T sg cl n .something fp) args).bind fun ms => (makeEach (gen D T sg cl n (.nothing .direct) fp) args).map fun ps => splitAll ms ps
          | .nothing _ => makeEach (gen D T sg cl n (.nothing .direct) fp) args).map f = some it →
        (match md with
          | .something => (makeEach (gen D T sg cl (n + 1) .something fp) args).bind fun ms =>
              (makeEach (gen D T sg cl (n + 1) (.nothing .direct) fp) args).map fun ps => splitAll ms ps
          | .nothing _ => makeEach (gen D T sg cl (n + 1) (.nothing .direct) fp) args).map f = some it := by
      intro md fp args f it e
      cases md with
      | something =>
        obtain ⟨r, hr, e⟩ := Option.map_eq_some_iff.mp e
        obtain ⟨ms, h1, h2⟩ := Option.bind_eq_some_iff.mp hr
        obtain ⟨ps, h3, rfl⟩ := Option.map_eq_some_iff.mp h2
        dsimp only
        rw [makeEach_mono (ih _ fp) args ms h1, makeEach_mono (ih _ fp) args ps h3]
        simp [e]
      | nothing h => exact he e
    intro md fp a it e
    cases a with
    | leaf l =>
      rw [gen] at e ⊢
      cases ho : theOverrider fp l.overridable (.std l.tag) with
      | none => rw [ho] at e; exact e
      | some o => rw [ho] at e; exact hc _ _ _ _ e
    | user u =>
      rw [gen] at e ⊢
      cases ho : theOverrider fp (cl.overridable u) (.user (cl.type u)) with
      | none => rw [ho] at e; exact hc _ _ _ _ e
      | some o => rw [ho] at e; exact hc _ _ _ _ e
    | join args =>
      cases md with
      | something => rw [gen] at e ⊢; exact he e
      | nothing h => rw [gen] at e ⊢; exact he e
    | alignedJoin al args => rw [gen] at e ⊢; exact he e
    | range args => rw [gen] at e ⊢; exact hel e
    | separatedRange fmt sep args => rw [gen] at e ⊢; exact hel e
    | tr str args => rw [gen] at e ⊢; exact he e
    | inner fs args =>
      rw [gen] at e ⊢
      by_cases hc : allConstrainable (stdAll fs) = true
      · rw [if_pos hc] at e ⊢; exact he e
      · rw [if_neg hc] at e; cases e

theorem gen_le {n k : Nat} (h : n ≤ k) {md : Mode} {fp : UPack ω} {a : UArg ω υ} {it : Item σ} (e : gen D T sg cl n md fp a = some it) :
    gen D T sg cl k md fp a = some it := by
  induction h with
  | refl => exact e
  | step _ ih => exact gen_mono _ _ _ _ _ ih

theorem genEach_le {n k : Nat} (h : n ≤ k) {md : Mode} {fp : UPack ω} {as : List (UArg ω υ)} {its : List (Item σ)}
    (e : makeEach (gen D T sg cl n md fp) as = some its) : makeEach (gen D T sg cl k md fp) as = some its :=
  makeEach_mono (fun _ _ e => gen_le h e) as its e

/-! ### arguments -/

theorem callPack_with (fp : UPack ω) : Facets.callFacets (Facets.withAll [] [fp]) [] = [.pack fp] := by
  rw [withAll_flatten]; simp [Facets.callFacets]

theorem leaf_none {fp : UPack ω} {l : Leaf} (hn : ¬ l.Overridable ∨ NotOverridden fp (.std l.tag)) : theOverrider fp l.overridable (.std l.tag) = none := by
  rcases hn with hn | hn
  · have : l.overridable = false := by
      cases h : l.overridable with
      | false => rfl
      | true => exact absurd ((overridable_iff l).mp h) hn
    rw [this]; rfl
  · exact notOverridden_get hn _

theorem user_none {fp : UPack ω} {u : υ} (hn : cl.overridable u = false ∨ NotOverridden fp (.user (cl.type u))) :
    theOverrider fp (cl.overridable u) (.user (cl.type u)) = none := by
  rcases hn with hn | hn
  · rw [hn]; rfl
  · exact notOverridden_get hn _

theorem leaf_exact (L : Lawful D Rep) {K : CharT → CharsetArg} {fp : UPack ω} {B : Int} {l : Leaf} {m : Meaning} (hd : Program.Denotes T K (stdAll fp) B l.arg m)
    (ht : UAllTyped fp) (hch : CharsetsAre (stdAll fp) K) : ∃ it, l.arg.item D T sg (stdAll fp) = some it ∧ it.Means τ D Rep B m := by
  obtain ⟨K', hch', hK'⟩ := charsets_exist (stdAll fp) (stdAll_typed fp ht)
  have hK : ∀ U, (K U).name.unitSize = U.size := by
    rw [← (hch'.fn .void).symm.trans (hch.fn .void)]; exact hK'
  exact arg_exact (sg := sg) L hK hd hch (stdAll fp) rfl

theorem inner_facets {K : CharT → CharsetArg} {fp fs : UPack ω} (ht : UAllTyped fp) (hch : CharsetsAre (stdAll fp) K) (h1 : UAllTyped fs)
    (h2 : allConstrainable (stdAll fs) = true) : UAllTyped ([.pack fp, .pack fs] : UPack ω) ∧ CharsetsAre (stdAll ([.pack fp, .pack fs] : UPack ω)) K :=
  ⟨by simp [UAllTyped, UTyped, ht, h1],
    (hch.append (stdAll_typed fs h1) h2).congr (by rw [Facets.writtenAll_append]; simp [stdAll, std, Facets.writtenAll, Facets.Fpe.written])⟩

theorem pack_facets {K : CharT → CharsetArg} {fp : UPack ω} (ht : UAllTyped fp) (hch : CharsetsAre (stdAll fp) K) :
    UAllTyped ([.pack fp] : UPack ω) ∧ CharsetsAre (stdAll ([.pack fp] : UPack ω)) K :=
  ⟨by simp [UAllTyped, UTyped, ht], hch.congr (by simp [stdAll, std, Facets.writtenAll, Facets.Fpe.written])⟩

end Strf.Direct

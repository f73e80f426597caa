import Verif.Transcode.NotesLemmas
import Verif.Print.Policies
import Verif.Print.Ranges
/-!
# What the transcoding error notifier hears while items are printed

The notifier is a facet: an object whose functions `invalid_sequence` and `unsupported_codepoint` are called. Here the calls are
recorded in the state: in a log beside the state of the destination.
-/
namespace Strf.Told
open Strf.Dest (Dest Lawful Prints After)
open Strf.Print
open Strf.IntPrinter (AlignFmt)
open Strf.Charset (Event OnceOrTwice)
open Strf.Transcode (invalids unsupporteds)

variable {σ : Type}

/-- the calls of the notifier so far -/
abbrev Log := List Event

/-- `rel N events`: a notifier that is to be told `N` may be told `events` -/
class Telling (α : Type) where
  rel : List α → List α → Prop
  nil : rel [] []
  append : ∀ {a b x y : List α}, rel a x → rel b y → rel (a ++ b) (x ++ y)

variable {α : Type}

/-- destination.hpp 62–230: a destination, and beside it the log of the notifier, of which the destination knows nothing -/
abbrev logged (D : Dest Nat σ) : Dest Nat (σ × List α) where
  space s := D.space s.1
  good s := D.good s.1
  poke s xs := (D.poke s.1 xs).map fun r => (r, s.2)
  recycle s := (D.recycle s.1, s.2)
  doWrite s xs := (D.doWrite s.1 xs).map fun r => (r, s.2)

/-- The events `N` are told: each once or twice, in order, and nothing else; the ill-formed sequences apart from the other
problems. -/
def Apart (N events : List Event) : Prop :=
  OnceOrTwice (invalids N) (invalids events) ∧ OnceOrTwice (unsupporteds N) (unsupporteds events)

theorem Apart.nil : Apart [] [] := ⟨.nil, .nil⟩

theorem Apart.append {a b x y : List Event} (h : Apart a x) (h' : Apart b y) : Apart (a ++ b) (x ++ y) := by
  unfold Apart invalids unsupporteds at *
  simp only [List.filter_append]
  exact ⟨Transcode.OnceOrTwice.append h.1 h'.1, Transcode.OnceOrTwice.append h.2 h'.2⟩

instance : Telling Event := ⟨Apart, .nil, .append⟩

/-- given text, whatever the log -/
def RepAny (Rep : σ → List Nat → Prop) (s : σ × List α) (t : List Nat) : Prop := Rep s.1 t
/-- given text, and the log is the same -/
def RepAt (Rep : σ → List Nat → Prop) (l : List α) (s : σ × List α) (t : List Nat) : Prop := Rep s.1 t ∧ s.2 = l

variable {D : Dest Nat σ} {Rep : σ → List Nat → Prop}

theorem lawful_any (L : Lawful D Rep) : Lawful (logged (α := α) D) (RepAny Rep) where
  poke s t xs h hx := by
    obtain ⟨s', e, r, g⟩ := L.poke s.1 t xs h hx
    exact ⟨(s', s.2), by dsimp only; rw [e]; rfl, r, g⟩
  recycle s t h hx := L.recycle s.1 t h hx
  doWrite s t xs h hx := by
    obtain ⟨s', e, r, g⟩ := L.doWrite s.1 t xs h hx
    exact ⟨(s', s.2), by dsimp only; rw [e]; rfl, r, g⟩
  bad s t xs h := L.bad s.1 t xs h

theorem lawful_at (L : Lawful D Rep) (l : List α) : Lawful (logged D) (RepAt Rep l) where
  poke s t xs h hx := by
    obtain ⟨s', e, r, g⟩ := L.poke s.1 t xs h.1 hx
    exact ⟨(s', s.2), by dsimp only; rw [e]; rfl, ⟨r, h.2⟩, g⟩
  recycle s t h hx := by
    obtain ⟨r, g⟩ := L.recycle s.1 t h.1 hx
    exact ⟨⟨r, h.2⟩, g⟩
  doWrite s t xs h hx := by
    obtain ⟨s', e, r, g⟩ := L.doWrite s.1 t xs h.1 hx
    exact ⟨(s', s.2), by dsimp only; rw [e]; rfl, ⟨r, h.2⟩, g⟩
  bad s t xs h g := ⟨L.bad s.1 t xs h.1 g, h.2⟩

variable [Telling α]

/-- While `pr` prints, the notifier hears of `N`, unless the destination fails. -/
def HearsPr (D : Dest Nat σ) (Rep : σ → List Nat → Prop) (pr : σ × List α → Option (σ × List α)) (N : List α) : Prop :=
  ∀ s l t, Rep s t → ∃ s' e t', pr (s, l) = some (s', l ++ e) ∧ Rep s' t' ∧ (D.good s' = true → D.good s = true ∧ Telling.rel N e)

theorem HearsPr.id : HearsPr D Rep (fun s : σ × List α => some s) [] :=
  fun s l t h => ⟨s, [], t, by simp, h, fun g => ⟨g, Telling.nil⟩⟩

theorem HearsPr.comp {p q : σ × List α → Option (σ × List α)} {N M : List α} (hp : HearsPr D Rep p N) (hq : HearsPr D Rep q M) :
    HearsPr D Rep (fun s => (p s).bind q) (N ++ M) := by
  intro s l t h
  obtain ⟨s1, e1, t1, h1, r1, g1⟩ := hp s l t h
  obtain ⟨s2, e2, t2, h2, r2, g2⟩ := hq s1 (l ++ e1) t1 r1
  refine ⟨s2, e1 ++ e2, t2, by dsimp only; rw [h1, Option.bind_some, h2, List.append_assoc], r2, fun g => ?_⟩
  obtain ⟨k, a2⟩ := g2 g
  obtain ⟨k, a1⟩ := g1 k
  exact ⟨k, Telling.append a1 a2⟩

theorem HearsPr.ifGood {q : σ × List α → Option (σ × List α)} {M : List α} (hq : HearsPr D Rep q M) :
    HearsPr D Rep (fun s => if (logged D).good s then q s else some s) M := by
  intro s l t h
  dsimp only
  by_cases hg : D.good s = true
  · rw [if_pos hg]; exact hq s l t h
  · rw [if_neg hg]; exact ⟨s, [], t, by simp, h, fun g => absurd g hg⟩

/-- what prints in the ordinary way tells nothing -/
theorem HearsPr.quiet {pr : σ × List α → Option (σ × List α)} {x : List Nat} (h : ∀ l, ∃ τ, Prints τ (logged D) (RepAt Rep l) pr x) :
    HearsPr D Rep pr [] := by
  intro s l t hr
  obtain ⟨τ, hp⟩ := h l
  obtain ⟨⟨s', l'⟩, e, ⟨r, hl⟩, g, -⟩ := hp (s, l) t ⟨hr, rfl⟩
  dsimp only at hl r g
  subst hl
  exact ⟨s', [], _, by simpa using e, r, fun k => ⟨g k, Telling.nil⟩⟩

theorem HearsPr.fill {C : Charset (σ × List α)} (HC : ∀ l, C.Lawful (logged D) (RepAt Rep l)) (n : Int) (hn : 0 ≤ n) (ch : Nat) :
    HearsPr D Rep (fun s => C.encodeFill s n ch) [] :=
  .quiet fun l => ⟨true, (HC l).fillTight n ch hn⟩

theorem HearsPr.aligned {C : Charset (σ × List α)} (HC : ∀ l, C.Lawful (logged D) (RepAt Rep l)) (a : IntPrinter.AlignFmt) (n : Int)
    {pr : σ × List α → Option (σ × List α)} {N : List α} (h : HearsPr D Rep pr N) : HearsPr D Rep (alignedPrint C a n pr) N := by
  by_cases h0 : n ≤ 0
  · have : alignedPrint C a n pr = pr := by funext s; unfold alignedPrint; rw [if_pos h0]
    rw [this]; exact h
  · have e : alignedPrint C a n pr = fun s => match a.align with
        | .left => (pr s).bind fun s => C.encodeFill s n a.fill
        | .right => (C.encodeFill s n a.fill).bind pr
        | .center => (C.encodeFill s (n / 2) a.fill).bind fun s => (pr s).bind fun s => C.encodeFill s (n - n / 2) a.fill := by
      funext s; unfold alignedPrint; rw [if_neg h0]; cases a.align <;> rfl
    rw [e]
    cases a.align with
    | left => simpa using h.comp (.fill HC n (by omega) a.fill)
    | right => simpa using (HearsPr.fill HC n (by omega) a.fill).comp h
    | center =>
      simpa using (HearsPr.fill HC (n / 2) (by omega) a.fill).comp (h.comp (.fill HC (n - n / 2) (by omega) a.fill))

/-! ## Items -/

/-- the second item does the same as the first where that does something -/
def Sub (it0 it : Item σ) : Prop := ∀ p r, it0.make p = some r → it.make p = some r

/-- the item means `m`, and every printer that it makes tells the notifier `N` -/
def Tells (D : Dest Nat σ) (Rep : σ → List Nat → Prop) (B : Int) (it : Item (σ × List α)) (m : Meaning) (N : List α) : Prop :=
  it.Means false (logged D) (RepAny Rep) B m ∧ ∀ p p' pr, it.make p = some (p', pr) → HearsPr D Rep pr N

/-- the item means `m`, and, if there is room for what is premeasured, its printer tells the notifier `N` -/
def Speaks (D : Dest Nat σ) (Rep : σ → List Nat → Prop) (B : Int) (it : Item (σ × List α)) (m : Meaning) (N : List α) : Prop :=
  ∃ it0, Sub it0 it ∧ Tells D Rep B it0 m N

/-- items one by one: `its0`, those that do the same with room -/
inductive AllSpeak (D : Dest Nat σ) (Rep : σ → List Nat → Prop) (B : Int) :
    List (Item (σ × List α)) → List (Item (σ × List α)) → List Meaning → List (List α) → Prop
  | nil : AllSpeak D Rep B [] [] [] []
  | cons {it0 it its0 its m ms N M} : Sub it0 it → Tells D Rep B it0 m N → AllSpeak D Rep B its0 its ms M →
      AllSpeak D Rep B (it0 :: its0) (it :: its) (m :: ms) (N :: M)

variable {B : Int} {it0 it : Item (σ × List α)} {its0 its : List (Item (σ × List α))} {m : Meaning} {ms : List Meaning} {N : List α} {Ns : List (List α)}

theorem AllSpeak.means (h : AllSpeak D Rep B its0 its ms Ns) : AllMean false (logged D) (RepAny Rep) B its0 ms := by
  induction h with
  | nil => exact .nil
  | cons _ h1 _ ih => exact .cons h1.1 ih

open Classical in
/-- an item whose printers tell `N` if there is room -/
theorem speaks_of_room (hm : it.Means false (logged D) (RepAny Rep) B m)
    (h : ∀ p p' pr, p.Room m.room m.cost B → it.make p = some (p', pr) → HearsPr D Rep pr N) : Speaks D Rep B it m N := by
  refine ⟨⟨fun p => if p.Room m.room m.cost B then it.make p else none⟩, ?_, ⟨hm.1, hm.2.1, hm.2.2.1, ?_⟩, ?_⟩
  · intro p r e
    dsimp only at e
    by_cases hp : p.Room m.room m.cost B
    · rw [if_pos hp] at e; exact e
    · rw [if_neg hp] at e; cases e
  · intro p hp
    dsimp only
    rw [if_pos hp]; exact hm.2.2.2 p hp
  · intro p p' pr e
    dsimp only at e
    by_cases hp : p.Room m.room m.cost B
    · rw [if_pos hp] at e; exact h p p' pr hp e
    · rw [if_neg hp] at e; cases e

/-- the printers of everything that prints in the ordinary way -/
theorem speaks_quiet (hm : it.Means false (logged D) (RepAny Rep) B m)
    (h : ∀ l, ∃ τ, it.Means τ (logged D) (RepAt Rep l) B m) : Speaks D Rep B it m [] := by
  refine speaks_of_room hm fun p p' pr hp e => .quiet (x := m.text) fun l => ?_
  obtain ⟨τ, h1⟩ := h l
  obtain ⟨q, pr', e', hpr, -⟩ := h1.2.2.2 p hp
  rw [e] at e'
  injection e' with e'
  injection e' with e1 e2
  subst e2
  exact ⟨τ, hpr⟩

theorem Tells.print_eq (hs : Sub it0 it) (h : Tells D Rep B it0 m N) : it0.print = it.print := by
  obtain ⟨q, pr, e, -⟩ := h.1.2.2.2 .nothing (by intro a ha; cases ha)
  funext s
  unfold Item.print
  rw [e, hs _ _ e]

theorem Tells.print (h : Tells D Rep B it m N) : HearsPr D Rep it.print N := by
  obtain ⟨q, pr, e, -⟩ := h.1.2.2.2 .nothing (by intro a ha; cases ha)
  have : it.print = pr := by funext s; unfold Item.print; rw [e]
  rw [this]; exact h.2 _ _ _ e

theorem AllSpeak.makeAll_sub (h : AllSpeak D Rep B its0 its ms Ns) : ∀ p r, makeAll its0 p = some r → makeAll its p = some r := by
  induction h with
  | nil => intro p r e; exact e
  | @cons it0 it its0 its m ms N M hs _ _ ih =>
    intro p r e
    unfold makeAll at e ⊢
    cases h1 : it0.make p with
    | none => rw [h1] at e; cases e
    | some q =>
      rw [h1] at e
      rw [hs _ _ h1]
      dsimp only at e ⊢
      obtain ⟨r', h2, rfl⟩ := Option.map_eq_some_iff.1 e
      rw [ih _ _ h2]; rfl

theorem AllSpeak.callAll (h : AllSpeak D Rep B its0 its ms Ns) : ∀ p p' prs, makeAll its0 p = some (p', prs) →
    HearsPr D Rep (Print.callAll (logged D) prs) Ns.flatten := by
  induction h with
  | nil => intro p p' prs e; cases e; exact .id
  | @cons it0 it its0 its m ms N M hs h1 _ ih =>
    intro p p' prs e
    unfold makeAll at e
    cases h2 : it0.make p with
    | none => rw [h2] at e; cases e
    | some q =>
      rw [h2] at e
      dsimp only at e
      obtain ⟨⟨r, prs'⟩, h3, e3⟩ := Option.map_eq_some_iff.1 e
      injection e3 with e4 e5
      subst e5
      exact (h1.2 _ _ _ h2).comp (HearsPr.ifGood (ih _ _ _ h3))

theorem AllSpeak.printAll_eq (h : AllSpeak D Rep B its0 its ms Ns) : printAll (logged D) its0 = printAll (logged D) its := by
  induction h with
  | nil => rfl
  | cons hs h1 _ ih => funext s; unfold printAll; rw [h1.print_eq hs, ih]

theorem AllSpeak.printAll (h : AllSpeak D Rep B its0 its ms Ns) : HearsPr D Rep (Print.printAll (logged D) its0) Ns.flatten := by
  induction h with
  | nil => exact .id
  | cons hs h1 _ ih => exact h1.print.comp (HearsPr.ifGood ih)

theorem speaks_join (L : Lawful D Rep) (h : AllSpeak D Rep B its0 its ms Ns) : Speaks D Rep B (join (logged D) its) (total ms) Ns.flatten := by
  refine ⟨join (logged D) its0, ?_, join_means (lawful_any L) h.means, ?_⟩
  · intro p r e
    unfold join at e ⊢
    dsimp only at e ⊢
    split at e
    · rename_i hc
      rw [if_pos hc, ← h.printAll_eq]; exact e
    · rename_i hc
      rw [if_neg hc]
      obtain ⟨r', h2, rfl⟩ := Option.map_eq_some_iff.1 e
      rw [h.makeAll_sub _ _ h2]; rfl
  · intro p p' pr e
    unfold join at e
    dsimp only at e
    split at e
    · injection e with e; injection e with _ e; subst e; exact h.printAll
    · obtain ⟨⟨q, prs⟩, h2, e2⟩ := Option.map_eq_some_iff.1 e
      injection e2 with _ e2
      subst e2
      exact h.callAll _ _ _ h2

theorem speaks_alignedJoin (L : Lawful D Rep) {C : Charset (σ × List α)} (HC : ∀ l, C.Lawful (logged D) (RepAt Rep l))
    (HA : C.Lawful (logged D) (RepAny Rep)) (a : IntPrinter.AlignFmt) (n : Nat) (ha : 0 ≤ a.width) (haw : a.width ≤ Width.wmax)
    (h : AllSpeak D Rep (max B a.width) its0 its ms Ns)
    (hroom : (total ms).room ≤ Width.wmax ∨ max B a.width + (total ms).cost ≤ Width.wmax)
    (hn : FillCount a.width (total ms).width n) (hlim : max B a.width + n * 65536 ≤ Width.wmax)
    (hover : B + min (total ms).width (max B a.width + (total ms).cost) - a.width ≤ Width.wmax) :
    Speaks D Rep B (alignedJoin (logged D) C a its) ((total ms).pad C.encodeChar a n) Ns.flatten := by
  refine ⟨alignedJoin (logged D) C a its0, ?_, alignedJoin_means (lawful_any L) HA a n ha haw h.means hroom hn hlim hover, ?_⟩
  · intro p r e
    unfold alignedJoin at e ⊢
    dsimp only at e ⊢
    cases hacc : p.acc with
    | none =>
      rw [hacc] at e
      dsimp only at e ⊢
      unfold joinNoWidth at e ⊢
      obtain ⟨q, h2, e⟩ := Option.bind_eq_some_iff.1 e
      rw [h.makeAll_sub _ _ h2]; exact e
    | some b =>
      rw [hacc] at e
      dsimp only at e ⊢
      unfold joinWidth at e ⊢
      obtain ⟨lim, h1, e⟩ := Option.bind_eq_some_iff.1 e
      obtain ⟨q, h2, e⟩ := Option.bind_eq_some_iff.1 e
      rw [h1, Option.bind_some, h.makeAll_sub _ _ h2]; exact e
  · intro p p' pr e
    unfold alignedJoin at e
    dsimp only at e
    cases hacc : p.acc with
    | none =>
      rw [hacc] at e
      dsimp only at e
      unfold joinNoWidth at e
      obtain ⟨⟨q, prs⟩, h2, e⟩ := Option.bind_eq_some_iff.1 e
      obtain ⟨rem, -, e⟩ := Option.bind_eq_some_iff.1 e
      injection e with e; injection e with _ e; subst e
      exact .aligned HC a _ (h.callAll _ _ _ h2)
    | some b =>
      rw [hacc] at e
      dsimp only at e
      unfold joinWidth at e
      obtain ⟨lim, -, e⟩ := Option.bind_eq_some_iff.1 e
      obtain ⟨⟨q, prs⟩, h2, e⟩ := Option.bind_eq_some_iff.1 e
      obtain ⟨k, -, e⟩ := Option.bind_eq_some_iff.1 e
      obtain ⟨x, -, e⟩ := Option.bind_eq_some_iff.1 e
      obtain ⟨rem, -, e⟩ := Option.bind_eq_some_iff.1 e
      obtain ⟨w, -, e⟩ := Option.bind_eq_some_iff.1 e
      obtain ⟨r, -, e⟩ := Option.map_eq_some_iff.1 e
      injection e with _ e; subst e
      exact .aligned HC a _ (h.callAll _ _ _ h2)

/-! ### ranges -/

theorem AllSpeak.rangeMeasure_sub (h : AllSpeak D Rep B its0 its ms Ns) :
    ∀ p r, rangeMeasure its0 p = some r → rangeMeasure its p = some r := by
  induction h with
  | nil => intro p r e; exact e
  | @cons it0 it its0 its m ms N M hs _ _ ih =>
    intro p r e
    unfold rangeMeasure at e ⊢
    split at e
    · rename_i hc
      rw [if_pos hc]
      obtain ⟨q, h1, e⟩ := Option.bind_eq_some_iff.1 e
      obtain ⟨q2, h2, rfl⟩ := Option.map_eq_some_iff.1 e
      rw [hs _ _ h1, Option.bind_some, ih _ _ h2]; rfl
    · rename_i hc
      rw [if_neg hc]; exact e

theorem AllSpeak.rangePrint_eq (h : AllSpeak D Rep B its0 its ms Ns) : rangePrint (logged D) its0 = rangePrint (logged D) its := by
  induction h with
  | nil => rfl
  | cons hs h1 _ ih => funext s; unfold rangePrint; rw [h1.print_eq hs, ih]

theorem AllSpeak.rangePrint (h : AllSpeak D Rep B its0 its ms Ns) : HearsPr D Rep (Print.rangePrint (logged D) its0) Ns.flatten := by
  induction h with
  | nil => exact .id
  | cons hs h1 _ ih => exact HearsPr.ifGood (h1.print.comp ih)

theorem AllSpeak.sepPrintRest_eq (h : AllSpeak D Rep B its0 its ms Ns) (sep : List Nat) :
    sepPrintRest (logged D) sep its0 = sepPrintRest (logged D) sep its := by
  induction h with
  | nil => rfl
  | cons hs h1 _ ih => funext s; unfold sepPrintRest; rw [h1.print_eq hs, ih]

theorem hears_write (L : Lawful D Rep) (xs : List Nat) : HearsPr D Rep (fun s : σ × List α => Dest.write (logged D) s xs) [] :=
  .quiet fun l => ⟨true, (lawful_at L l).prints_write xs⟩

theorem AllSpeak.sepPrintRest (L : Lawful D Rep) (h : AllSpeak D Rep B its0 its ms Ns) (sep : List Nat) :
    HearsPr D Rep (Print.sepPrintRest (logged D) sep its0) Ns.flatten := by
  induction h with
  | nil => exact .id
  | cons hs h1 _ ih => exact HearsPr.ifGood (by simpa using (hears_write L sep).comp (h1.print.comp ih))

theorem AllSpeak.sepPrint_eq (h : AllSpeak D Rep B its0 its ms Ns) (sep : List Nat) :
    sepPrint (logged D) sep its0 = sepPrint (logged D) sep its := by
  cases h with
  | nil => rfl
  | cons hs h1 h => funext s; unfold sepPrint; dsimp only; rw [h1.print_eq hs, h.sepPrintRest_eq]

theorem AllSpeak.sepPrint (L : Lawful D Rep) (h : AllSpeak D Rep B its0 its ms Ns) (sep : List Nat) :
    HearsPr D Rep (Print.sepPrint (logged D) sep its0) Ns.flatten := by
  cases h with
  | nil => exact .id
  | cons hs h1 h => exact h1.print.comp (h.sepPrintRest L sep)

theorem speaks_range (L : Lawful D Rep) (h : AllSpeak D Rep B its0 its ms Ns) : Speaks D Rep B (range (logged D) its) (total ms) Ns.flatten := by
  refine ⟨range (logged D) its0, ?_, range_means (lawful_any L) h.means, ?_⟩
  · intro p r e
    unfold range at e ⊢
    dsimp only at e ⊢
    rw [← h.rangePrint_eq]
    split at e
    · rename_i hc; rw [if_pos hc]; exact e
    · rename_i hc
      rw [if_neg hc]
      obtain ⟨r', h2, rfl⟩ := Option.map_eq_some_iff.1 e
      rw [h.rangeMeasure_sub _ _ h2]; rfl
  · intro p p' pr e
    unfold range at e
    dsimp only at e
    split at e
    · injection e with e; injection e with _ e; subst e; exact h.rangePrint
    · obtain ⟨q, -, e2⟩ := Option.map_eq_some_iff.1 e
      injection e2 with _ e2; subst e2; exact h.rangePrint

/-- the separated ranges -/
theorem speaks_separated (L : Lawful D Rep) {W : WCalc} {Ok : List Nat → Prop} {width : List Nat → Int} {slack : Int}
    (HW : W.Measures slack Ok width) {sep : List Nat} (hsep : Ok sep) (h : AllSpeak D Rep B its0 its ms Ns) (hlen : ms.length < 2 ^ 64) :
    Speaks D Rep B (separatedRange (logged D) W sep its) (separated sep (width sep) ms) Ns.flatten ∧
    Speaks D Rep B (fmtSeparatedRange (logged D) W sep its) (separated sep (width sep) ms) Ns.flatten := by
  obtain ⟨m1, m2⟩ := separated_means (lawful_any L) HW hsep h.means hlen
  refine ⟨⟨separatedRange (logged D) W sep its0, ?_, m1, ?_⟩, ⟨fmtSeparatedRange (logged D) W sep its0, ?_, m2, ?_⟩⟩
  · intro p r e
    unfold separatedRange at e ⊢
    dsimp only at e ⊢
    rw [← h.sepPrint_eq]
    split at e
    · rename_i hc; rw [if_pos hc]; exact e
    · rename_i hc
      rw [if_neg hc]
      unfold sepMeasure at e ⊢
      obtain ⟨r', h2, rfl⟩ := Option.map_eq_some_iff.1 e
      obtain ⟨r2, h3, h2⟩ := Option.bind_eq_some_iff.1 h2
      rw [h.rangeMeasure_sub _ _ h3, Option.bind_some, h2]; rfl
  · intro p p' pr e
    unfold separatedRange at e
    dsimp only at e
    split at e
    · injection e with e; injection e with _ e; subst e; exact h.sepPrint L sep
    · obtain ⟨q, -, e2⟩ := Option.map_eq_some_iff.1 e
      injection e2 with _ e2; subst e2; exact h.sepPrint L sep
  · intro p r e
    unfold fmtSeparatedRange at e ⊢
    dsimp only at e ⊢
    rw [← h.sepPrint_eq]
    split at e
    · rename_i hc; rw [if_pos hc]; exact e
    · rename_i hc
      rw [if_neg hc]
      unfold fmtSepMeasure at e ⊢
      obtain ⟨r', h2, rfl⟩ := Option.map_eq_some_iff.1 e
      obtain ⟨r2, h3, h2⟩ := Option.bind_eq_some_iff.1 h2
      rw [h.rangeMeasure_sub _ _ h3, Option.bind_some, h2]; rfl
  · intro p p' pr e
    unfold fmtSeparatedRange at e
    dsimp only at e
    split at e
    · injection e with e; injection e with _ e; subst e; exact h.sepPrint L sep
    · obtain ⟨q, -, e2⟩ := Option.map_eq_some_iff.1 e
      injection e2 with _ e2; subst e2; exact h.sepPrint L sep

end Strf.Told

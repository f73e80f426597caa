import Verif.Told.Generic
import Verif.Program.TrCallProps
/-!
# What any notifier is told during a call of `tr`, in terms of what the items tell it
-/
namespace Strf.Told
open Strf.Dest (Dest Lawful)
open Strf.Format
open Strf.Print (Item Meaning printTr printTrCalc lineText endLine trStringWrite)
open Strf.Tr (Reads Seg expand missing)

variable {σ : Type} {D : Dest Nat σ} {Rep : σ → List Nat → Prop} {B : Int} {α : Type} [Telling α]

/-- what is printed, what is told meanwhile, and the positions for the other notifier, that of `tr` -/
def TrOutcome (D : Dest Nat σ) (Rep : σ → List Nat → Prop) (text : List Nat) (N : List α) (ps : List Nat) (s : σ) (l : List α) (t : List Nat)
    (r : Option ((σ × List α) × List Nat)) : Prop :=
  ∃ s' e, r = some ((s', l ++ e), ps) ∧ Rep s' (t ++ text) ∧ (D.good s' = true → Telling.rel N e) ∧ (D.good s' = true → D.good s = true)

theorem heard_line (L : Lawful D Rep) (eol : Bool) {st : (σ × List α) × List Nat} {o : Option ((σ × List α) × List Nat)} {N : List α}
    (h : HeardO D Rep st o N) :
    HeardO D Rep st (o.bind fun r => (endLine (logged D) eol r.1).map fun s => (s, r.2)) N := by
  have := h.bind (f := fun r => (endLine (logged D) eol r.1).map fun s => (s, r.2)) (M := [])
    fun st' t hr => HeardO.of (hears_endLine L eol) hr _
  rwa [List.append_nil] at this

theorem sizes_of {D : Dest Nat σ} {Rep : σ → List Nat → Prop} {its : List (Item σ)} {ms : List Meaning} (h : Print.AllMean false D Rep B its ms) :
    ∀ {rs}, Print.makeEach ⟨some 0, none⟩ its = some rs → (rs.map fun r => r.1.accSize) = (ms.map (·.text)).map List.length := by
  induction h with
  | nil => intro rs e; cases e; rfl
  | @cons it its m ms h1 hs ih =>
    intro rs e
    obtain ⟨q, pr, e1, p1, g1, g2, _⟩ := h1.2.2.2 ⟨some 0, none⟩ (by intro a ha; cases ha)
    unfold Print.makeEach at e
    rw [e1, Option.bind_some] at e
    obtain ⟨rs', e2, rfl⟩ := Option.map_eq_some_iff.1 e
    simp only [List.map_cons, ih e2]
    congr 1
    unfold Print.Pre.accSize
    rw [g1]; simp

theorem AllSpeak.prints_eq {its0 its : List (Item (σ × List α))} {ms : List Meaning} {Ns : List (List α)}
    (h : AllSpeak D Rep B its0 its ms Ns) : its0.map Item.print = its.map Item.print := by
  induction h with
  | nil => rfl
  | cons hs h1 _ ih => rw [List.map_cons, List.map_cons, h1.print_eq hs, ih]

theorem AllSpeak.argsTell {its0 its : List (Item (σ × List α))} {ms : List Meaning} {Ns : List (List α)}
    (h : AllSpeak D Rep B its0 its ms Ns) : ArgsTell D Rep (its0.map Item.print) Ns := by
  induction h with
  | nil => exact ⟨rfl, fun i h => absurd h (by simp)⟩
  | @cons it0 it its0 its m ms N M hs h1 _ ih =>
    obtain ⟨a, b⟩ := ih
    refine ⟨by simpa using a, fun i hi => ?_⟩
    cases i with
    | zero => exact h1.print
    | succ i => exact b i (by simpa using hi)

theorem trOutcome_of {x : List Nat} {N : List α} {ps : List Nat} {s s1 : σ} {l l1 : List α} {t : List Nat}
    {r : Option ((σ × List α) × List Nat)} (e1 : r = some ((s1, l1), ps)) (r1 : Rep s1 (t ++ x)) (h : HeardO D Rep ((s, l), []) r N) :
    TrOutcome D Rep x N ps s l t r := by
  obtain ⟨s', e, ps', t', h1, h2, h3⟩ := h
  rw [e1] at h1
  injection h1 with h1
  injection h1 with h4 h5
  injection h4 with h6 h7
  subst h6 h7
  exact ⟨s1, e, e1, r1, fun g => (h3 g).2, fun g => (h3 g).1⟩

/-- a call of `tr` whose items tell `Ns` -/
theorem tr_items_told (L : Lawful D Rep) (eol : Bool) (n : CsName) {its0 its : List (Item (σ × List α))} {ms : List Meaning} {Ns : List (List α)}
    (hm : AllSpeak D Rep B its0 its ms Ns) {str : List Nat} {segs : List Seg} (hr : Reads 0 str segs) (text : List Nat)
    (htext : text = lineText eol (expand (ms.map (·.text)) n.cs.replacement 0 segs)) :
    (∀ s l t, Rep s t → TrOutcome D Rep text (atReferences Ns 0 segs) (missing ms.length 0 segs) s l t
      (printTr (logged D) (n.cs.repl (logged D)) eol str its (s, l))) ∧
    ∀ create : Nat → σ, ∀ l t, Rep (create text.length) t →
      TrOutcome D Rep text (atReferences Ns 0 segs) (missing ms.length 0 segs) (create text.length) l t
        (printTrCalc (logged D) (n.cs.repl (logged D)) eol str its fun n => (create n, l)) := by
  have LA := lawful_any (α := α) L
  have HQ : HearsPr D Rep (n.cs.repl (logged (α := α) D)).write [] :=
    .quiet fun l => ⟨true, (n.cs.repl_lawful (lawful_at L l)).printsTight⟩
  constructor
  · intro s l t hrep
    obtain ⟨⟨⟨s1, l1⟩, e1, r1, -⟩, -⟩ := Print.print_tr_after (τ := false) LA n.cs hm.means str segs hr eol (s, l) t hrep
    have hp : printTr (logged D) (n.cs.repl (logged D)) eol str its (s, l) = printTr (logged D) (n.cs.repl (logged D)) eol str its0 (s, l) := by
      unfold printTr
      rw [hm.prints_eq]
    rw [hp, htext]
    refine trOutcome_of e1 r1 ?_
    unfold printTr
    exact heard_line L eol (trStringWrite_heard L HQ hm.argsTell hr (st := ((s, l), [])) hrep)
  · intro create l t hrep
    rw [htext] at hrep ⊢
    obtain ⟨-, h2⟩ := Print.print_tr_after (τ := false) LA n.cs hm.means str segs hr eol (create _, l) t hrep
    obtain ⟨⟨s1, l1⟩, e1, r1, -⟩ := h2 (fun n => (create n, l)) rfl
    have e1' := e1
    unfold printTrCalc at e1'
    obtain ⟨rs, h3, e1'⟩ := Option.bind_eq_some_iff.1 e1'
    obtain ⟨z, h4, e1'⟩ := Option.bind_eq_some_iff.1 e1'
    have hp : printTrCalc (logged D) (n.cs.repl (logged D)) eol str its (fun n => (create n, l)) =
        printTrCalc (logged D) (n.cs.repl (logged D)) eol str its0 fun n => (create n, l) := by
      unfold printTrCalc
      rw [h3, hm.makeEach_sub _ _ h3]
    rw [hp]
    have hsize : z + eol.toNat = (lineText eol (expand (ms.map (·.text)) n.cs.replacement 0 segs)).length := by
      rw [sizes_of hm.means h3, Print.tr_size_exact (D := logged D) n.cs (ms.map (·.text)) str segs hr] at h4
      injection h4 with h4
      subst h4
      unfold lineText
      cases eol <;> simp
    refine trOutcome_of e1 r1 ?_
    unfold printTrCalc
    rw [h3, Option.bind_some, h4, Option.bind_some, hsize]
    exact heard_line L eol (trStringWrite_heard L HQ (hm.makeEach _ _ h3) hr (st := ((create _, l), [])) hrep)

end Strf.Told

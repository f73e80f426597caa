import Verif.Told.Tr
import Verif.Program.CallProps
/-!
# What any notifier is told during a call, in terms of what the items tell it
-/
namespace Strf.Told
open Strf.Dest (Dest Lawful Prints After Maker)
open Strf.Format
open Strf.Print (Item Meaning AllMean total printPlain printCalc lineText makeIn inOrder endLine)
open Strf.Program (Arg Pack Call Holds CharsetsAre Denotes DenoteAll AllTyped)
open Strf.Facets (writtenAll)

variable {σ : Type} {D : Dest Nat σ} {Rep : σ → List Nat → Prop} {T : CharT} {K : CharT → CharsetArg} {sg : CharT → Bool} {B : Int}
variable {α : Type} [Telling α]

theorem speaks_tuple (L : Lawful D Rep) {B : Int} {Ns : List (List α)} {its0 its : List (Item (σ × List α))} {ms : List Print.Meaning}
    (h : AllSpeak D Rep B its0 its ms Ns) : Speaks D Rep B (Program.tuple (logged D) its) (Print.total ms) Ns.flatten := by
  refine ⟨Program.tuple (logged D) its0, ?_, Program.tuple_means (lawful_any L) h.means, ?_⟩
  · intro p r e
    unfold Program.tuple at e ⊢
    dsimp only at e ⊢
    obtain ⟨r', h2, rfl⟩ := Option.map_eq_some_iff.1 e
    rw [h.makeAll_sub _ _ h2]; rfl
  · intro p p' pr e
    unfold Program.tuple at e
    dsimp only at e
    obtain ⟨⟨q, prs⟩, h2, e2⟩ := Option.map_eq_some_iff.1 e
    injection e2 with _ e2
    subst e2
    exact h.callAll _ _ _ h2

/-- an argument that holds no notifier -/
theorem leaf_told (L : Lawful D Rep) (hK : ∀ U, (K U).name.unitSize = U.size) {fp : Pack} {B : Int} {arg : Arg} {m : Meaning}
    (h : Denotes T K fp B arg m) (hch : CharsetsAre fp K) (fp' : Pack) (e : writtenAll fp' = writtenAll fp) :
    ∃ it : Item (σ × List α), arg.item (logged D) T sg fp' = some it ∧ Speaks D Rep B it m [] := by
  obtain ⟨it, hi, hm⟩ := Program.arg_exact (τ := false) (sg := sg) (lawful_any L) hK h hch fp' e
  refine ⟨it, hi, speaks_quiet hm fun l => ⟨false, ?_⟩⟩
  obtain ⟨it', hi', hm'⟩ := Program.arg_exact (τ := false) (sg := sg) (lawful_at L l) hK h hch fp' e
  rw [hi] at hi'
  injection hi' with hi'
  subst hi'
  exact hm'

theorem hears_endLine (L : Lawful D Rep) (eol : Bool) : HearsPr D Rep (endLine (logged (α := α) D) eol) [] :=
  .quiet fun l => ⟨true, Print.endLine_prints (lawful_at L l) eol⟩

/-- the events of the items, one by one -/
theorem AllSpeak.each {its0 its : List (Item (σ × List α))} {ms : List Meaning} {Ns : List (List α)} (h : AllSpeak D Rep B its0 its ms Ns) :
    Ns.length = its0.length ∧ its.length = its0.length ∧ ∀ i it0, its0[i]? = some it0 →
      ∃ it m, its[i]? = some it ∧ Sub it0 it ∧ Tells D Rep B it0 m (Ns.getD i []) := by
  induction h with
  | nil => exact ⟨rfl, rfl, by simp⟩
  | @cons it0 it its0 its m ms N M hs h1 _ ih =>
    obtain ⟨e1, e2, e3⟩ := ih
    refine ⟨by simp [e1], by simp [e2], fun i x hx => ?_⟩
    cases i with
    | zero => simp at hx; subst hx; exact ⟨it, m, rfl, hs, h1⟩
    | succ i => obtain ⟨y, m', k1, k2, k3⟩ := e3 i x (by simpa using hx); exact ⟨y, m', by simpa using k1, k2, by simpa using k3⟩

theorem makeIn_told {its0 its : List (Item (σ × List α))} {Ns : List (List α)}
    (h : ∀ i it0, its0[i]? = some it0 → ∃ it m, its[i]? = some it ∧ Sub it0 it ∧ Tells D Rep B it0 m (Ns.getD i [])) :
    ∀ order p p' prs, makeIn its0 order p = some (p', prs) → makeIn its order p = some (p', prs) ∧
      ∀ i pr, prs.lookup i = some pr → HearsPr D Rep pr (Ns.getD i []) := by
  intro order
  induction order with
  | nil => intro p p' prs e; unfold makeIn at e ⊢; cases e; exact ⟨rfl, by simp⟩
  | cons i order ih =>
    intro p p' prs e
    unfold makeIn at e ⊢
    cases h0 : its0[i]? with
    | none => rw [h0] at e; cases e
    | some it0 =>
      rw [h0] at e
      dsimp only at e
      obtain ⟨it, m, k1, k2, k3⟩ := h i it0 h0
      obtain ⟨⟨q, pr⟩, h1, e⟩ := Option.bind_eq_some_iff.1 e
      obtain ⟨⟨q2, prs2⟩, h2, e⟩ := Option.map_eq_some_iff.1 e
      injection e with e1 e2
      subst e1 e2
      obtain ⟨j1, j2⟩ := ih _ _ _ h2
      refine ⟨by rw [k1]; dsimp only; rw [k2 _ _ h1, Option.bind_some, j1]; rfl, fun j pr' hj => ?_⟩
      rw [List.lookup_cons] at hj
      by_cases hji : j = i
      · subst hji
        rw [beq_self_eq_true] at hj
        injection hj with hj
        subst hj
        exact k3.2 _ _ _ h1
      · rw [beq_eq_false_iff_ne.2 hji] at hj
        exact j2 j pr' hj

theorem callAll_told (prs : List (Nat × (σ × List α → Option (σ × List α)))) : ∀ (n k : Nat) (Ns : List (List α)),
    (∀ i, i < Ns.length → ∃ pr, prs.lookup (k + i) = some pr ∧ HearsPr D Rep pr (Ns.getD i [])) → n = Ns.length →
    HearsPr D Rep (Print.callAll (logged D) ((List.range' k n).filterMap fun i => prs.lookup i)) Ns.flatten := by
  intro n
  induction n with
  | zero =>
    intro k Ns _ hn
    have : Ns = [] := List.length_eq_zero_iff.1 hn.symm
    subst this
    exact .id
  | succ n ih =>
    intro k Ns h hn
    cases Ns with
    | nil => simp at hn
    | cons N Ns =>
      obtain ⟨pr, e, hp⟩ := h 0 (by simp)
      have := ih (k + 1) Ns (fun i hi => by
        obtain ⟨pr', e', hp'⟩ := h (i + 1) (by simpa using hi)
        exact ⟨pr', by rw [Nat.add_assoc, Nat.add_comm 1 i]; exact e', by simpa using hp'⟩) (by simpa using hn)
      rw [List.range'_succ, List.filterMap_cons]
      rw [Nat.add_zero] at e
      simp only [e]
      exact HearsPr.comp (by simpa using hp) (HearsPr.ifGood this)

/-! ### whole calls -/

/-- what is printed, and what is told meanwhile -/
def Outcome (D : Dest Nat σ) (Rep : σ → List Nat → Prop) (text : List Nat) (N : List α) (s : σ) (l : List α) (t : List Nat)
    (r : Option (σ × List α)) : Prop :=
  ∃ s' e, r = some (s', l ++ e) ∧ Rep s' (t ++ text) ∧ (D.good s' = true → Telling.rel N e) ∧ (D.good s' = true → D.good s = true)

theorem outcome_of {pr : σ × List α → Option (σ × List α)} {x : List Nat} {N : List α} (hp : Prints false (logged D) (RepAny Rep) pr x)
    (hh : HearsPr D Rep pr N) (s : σ) (l : List α) (t : List Nat) (hr : Rep s t) : Outcome D Rep x N s l t (pr (s, l)) := by
  obtain ⟨s1, e, t1, e1, -, g1⟩ := hh s l t hr
  obtain ⟨⟨s2, l2⟩, e2, r, -, -⟩ := hp (s, l) t hr
  rw [e1] at e2
  injection e2 with e2
  injection e2 with e3 e4
  subst e3
  exact ⟨s1, e, e1, r, fun g => (g1 g).2, fun g => (g1 g).1⟩

/-- a call whose items tell `Ns`, without and with the calculation of the size before -/
theorem items_told (L : Lawful D Rep) (eol : Bool) {n : Nat} {its0 its : List (Item (σ × List α))} {ms : List Meaning} {Ns : List (List α)}
    (hm : AllSpeak D Rep B its0 its ms Ns) (hargs : ms.length = n) :
      (∀ s l t, Rep s t → Outcome D Rep (lineText eol (total ms).text) Ns.flatten s l t (printPlain (logged D) eol its (s, l))) ∧
      ∀ order : List Nat, order.Perm (List.range n) → ∀ create : Nat → σ, ∀ l t, Rep (create (lineText eol (total ms).text).length) t →
        Outcome D Rep (lineText eol (total ms).text) Ns.flatten (create (lineText eol (total ms).text).length) l t
          (printCalc (logged D) eol its order fun n => (create n, l)) := by
  have LA : Lawful (logged (α := α) D) (RepAny Rep) := lawful_any L
  refine ⟨?_, ?_⟩
  · intro s l t hr
    have hp := Print.printPlain_prints LA eol hm.means
    have hh : HearsPr D Rep (printPlain (logged D) eol its0) Ns.flatten := by
      have := (hm.printAll).comp (hears_endLine L eol)
      rw [List.append_nil] at this
      exact this
    have he : printPlain (logged D) eol its0 = printPlain (logged D) eol its := by
      funext s; unfold printPlain; rw [hm.printAll_eq]
    rw [he] at hp hh
    exact outcome_of hp hh s l t hr
  · intro order ho create l t hr
    obtain ⟨hlen, hlen2, heach⟩ := hm.each
    have hmm := hm.means
    have hl0 := hmm.length
    have ho' : order.Perm (List.range its0.length) := by rw [hl0, hargs]; exact ho
    obtain ⟨p, prs, e, hp, hpr⟩ := Print.makeIn_spec hmm order 0 (ho'.nodup_iff.2 List.nodup_range)
      fun i hi => by have := List.mem_range.1 (ho'.mem_iff.1 hi); omega
    obtain ⟨e', hh⟩ := makeIn_told heach order _ _ _ e
    obtain ⟨pr, hpp, hce⟩ := Print.printCalc_spec LA eol hmm order ho'
    have hin : inOrder its0.length prs = (List.range' 0 its0.length).filterMap fun i => prs.lookup i := by
      unfold inOrder; rw [List.range_eq_range']
    have hcall : HearsPr D Rep (Print.callAll (logged D) (inOrder its0.length prs)) Ns.flatten := by
      rw [hin]
      refine callAll_told prs _ 0 Ns (fun i hi => ?_) hlen.symm
      obtain ⟨pr, h1, -⟩ := hpr i (ho'.mem_iff.2 (List.mem_range.2 (by omega)))
      exact ⟨pr, by rw [Nat.zero_add]; exact h1, hh i pr h1⟩
    have hcall2 : HearsPr D Rep (fun s => (Print.callAll (logged D) (inOrder its0.length prs) s).bind (endLine (logged D) eol)) Ns.flatten := by
      have := hcall.comp (hears_endLine L eol)
      simpa using this
    have hsame : ∀ f : Nat → σ × List α, printCalc (logged D) eol its order f = printCalc (logged D) eol its0 order f := by
      intro f
      unfold printCalc
      rw [e, e', hlen2]
    have hval : ∀ f : Nat → σ × List α, printCalc (logged D) eol its0 order f =
        (Print.callAll (logged D) (inOrder its0.length prs) (f (p.accSize + eol.toNat))).bind (endLine (logged D) eol) := by
      intro f
      unfold printCalc
      rw [e]; rfl
    have hn : pr = fun s => (Print.callAll (logged D) (inOrder its0.length prs) s).bind (endLine (logged D) eol) := by
      funext s
      rw [← hval fun _ => s, hce]
    rw [hsame, hce]
    rw [hn] at hpp ⊢
    exact outcome_of hpp hcall2 _ l t hr


theorem denoteAll_length : ∀ {fp : Pack} {B : Int} {as : List Arg} {ms : List Meaning}, DenoteAll T K fp B as ms → ms.length = as.length := by
  intro fp B as
  induction as with
  | nil => intro ms h; cases h; rfl
  | cons a as ih => intro ms h; cases h with | cons _ h => simp [ih h]

end Strf.Told

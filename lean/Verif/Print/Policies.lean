import Verif.Print.CharProps
import Verif.Dest.Finish
/-!
# Model of include/strf/detail/reserve_policies.hpp: from the arguments to the result

The arguments are items, the facets being already applied (separate_args_and_print.hpp). A destination creator is what
its `create` functions return: the initial state of the destination.
-/
namespace Strf.Print
open Strf.Width
open Strf.Dest (Dest Lawful Prints)
open Strf.Tr

variable {σ : Type}

/-- reserve_policies.hpp 110–112, 138–140, 163–166, 288–290, 367–369: the end of line of `line` and `trline` -/
def endLine (D : Dest Nat σ) (eol : Bool) (s : σ) : Option σ := if eol then Dest.put D s 0x0A else some s

/-- reserve_policies.hpp 91–143 create_destination_and_print with no_reserve and with reserve_given_space, up to the call to finish; `s` is the
state of the destination that was created -/
def printPlain (D : Dest Nat σ) (eol : Bool) (its : List (Item σ)) (s : σ) : Option σ :=
  (printAll D its s).bind (endLine D eol)

/-- reserve_policies.hpp 196–203: the calls of make_printer, all with the same premeasurements; the order in which the compiler evaluates them is
unspecified: it is `order`, a list of the indices of the arguments -/
def makeIn (its : List (Item σ)) : List Nat → Pre → Option (Pre × List (Nat × (σ → Option σ)))
  | [], p => some (p, [])
  | i :: order, p =>
    match its[i]? with
    | none => none
    | some it => (it.make p).bind fun r => (makeIn its order r.1).map fun q => (q.1, (i, r.2) :: q.2)

/-- reserve_policies.hpp 196–203: the printers in the order of the arguments -/
def inOrder (n : Nat) (prs : List (Nat × (σ → Option σ))) : List (σ → Option σ) :=
  (List.range n).filterMap fun i => prs.lookup i

/-- reserve_policies.hpp 145–169, 179–205 create_destination_and_print with reserve_calc; `create n` is the state of the destination that is created
with the size `n` -/
def printCalc (D : Dest Nat σ) (eol : Bool) (its : List (Item σ)) (order : List Nat) (create : Nat → σ) : Option σ :=
  (makeIn its order ⟨some 0, none⟩).bind fun r =>
    (callAll D (inOrder its.length r.2) (create (r.1.accSize + eol.toNat))).bind (endLine D eol)

/-- reserve_policies.hpp 229–292 the same for `tr` and `trline` with no_reserve and with reserve_given_space; also what is reported to the
error notifier -/
def printTr (D : Dest Nat σ) (R : Repl σ) (eol : Bool) (str : List Nat) (its : List (Item σ)) (s : σ) :
    Option (σ × List Nat) :=
  (trStringWrite D R (its.map Item.print) str (s, [])).bind fun r => (endLine D eol r.1).map fun s => (s, r.2)

/-- reserve_policies.hpp 297–374 the same with reserve_calc. (It creates a `destination_type` with a size, so that it only compiles if that
is also the sized destination type, as with strf::append.) -/
def printTrCalc (D : Dest Nat σ) (R : Repl σ) (eol : Bool) (str : List Nat) (its : List (Item σ)) (create : Nat → σ) :
    Option (σ × List Nat) :=
  (makeEach ⟨some 0, none⟩ its).bind fun rs =>
    (trStringSize (rs.map fun r => r.1.accSize) R.size str).bind fun size =>
      (trStringWrite D R (rs.map fun r => r.2) str (create (size + eol.toNat), [])).bind fun r =>
        (endLine D eol r.1).map fun s => (s, r.2)

/-- What is to be printed: the text, and perhaps the end of line. -/
def lineText (eol : Bool) (text : List Nat) : List Nat := text ++ if eol then [0x0A] else []

/-! ## Lemmas -/

variable {D : Dest Nat σ} {Rep : σ → List Nat → Prop} {B : Int}

theorem endLine_prints (L : Lawful D Rep) (eol : Bool) : Prints τ D Rep (endLine D eol) (if eol then [0x0A] else []) := by
  cases eol with
  | false => exact Prints.nil
  | true => exact L.prints_put (τ := τ) 0x0A

theorem printPlain_prints (L : Lawful D Rep) (eol : Bool) {its : List (Item σ)} {ms : List Meaning}
    (h : AllMean τ D Rep B its ms) : Prints τ D Rep (printPlain D eol its) (lineText eol (total ms).text) :=
  Prints.comp (h.prints L) (endLine_prints L eol)

theorem AllMean.length {its : List (Item σ)} {ms : List Meaning} (h : AllMean τ D Rep B its ms) : its.length = ms.length := by
  induction h with
  | nil => rfl
  | cons _ _ ih => simp [ih]

theorem AllMean.get {its : List (Item σ)} {ms : List Meaning} (h : AllMean τ D Rep B its ms) (i : Nat) (hi : i < ms.length) :
    ∃ it, its[i]? = some it ∧ it.Means τ D Rep B ms[i] := by
  induction h generalizing i with
  | nil => simp at hi
  | @cons it its m ms h1 hs ih =>
    cases i with
    | zero => exact ⟨it, rfl, h1⟩
    | succ i => exact ih i (by simpa using hi)

theorem makeIn_spec {its : List (Item σ)} {ms : List Meaning} (h : AllMean τ D Rep B its ms) :
    ∀ (order : List Nat) (n : Nat), order.Nodup → (∀ i ∈ order, i < ms.length) → ∃ p prs, makeIn its order ⟨some n, none⟩ = some (p, prs) ∧
      p = ⟨some (n + (order.map fun i => (ms.getD i ⟨[], 0, 0, 0⟩).text.length).sum), none⟩ ∧
      ∀ i ∈ order, ∃ pr, prs.lookup i = some pr ∧ Prints τ D Rep pr (ms.getD i ⟨[], 0, 0, 0⟩).text := by
  intro order
  induction order with
  | nil => intro n _ _; exact ⟨_, [], rfl, by simp, by simp⟩
  | cons i order ih =>
    intro n hnd hlt
    rw [List.nodup_cons] at hnd
    have hi := hlt i (by simp)
    obtain ⟨it, e, hm⟩ := h.get i hi
    obtain ⟨q, pr, e1, p1, g1, g2, _⟩ := hm.2.2.2 ⟨some n, none⟩ (by intro a ha; cases ha)
    have hq : q = ⟨some (n + ms[i].text.length), none⟩ := by
      obtain ⟨qs, qa⟩ := q
      simp only at g1 g2
      rw [g1, g2 trivial]; rfl
    obtain ⟨p, prs, e2, hp, hpr⟩ := ih (n + ms[i].text.length) hnd.2 fun j hj => hlt j (by simp [hj])
    have hgd : ms.getD i ⟨[], 0, 0, 0⟩ = ms[i] := by rw [List.getD_eq_getElem?_getD, List.getElem?_eq_getElem hi]; rfl
    refine ⟨p, (i, pr) :: prs, ?_, ?_, ?_⟩
    · unfold makeIn
      rw [e]
      dsimp only
      rw [e1, hq]
      simp only [Option.bind_some, e2, Option.map_some]
    · rw [hp, List.map_cons, List.sum_cons, hgd]
      congr 2; omega
    · intro j hj
      by_cases hji : j = i
      · subst hji
        exact ⟨pr, by simp [List.lookup], by rw [hgd]; exact p1⟩
      · have hj' : j ∈ order := by simpa [hji] using hj
        obtain ⟨pr', l1, l2⟩ := hpr j hj'
        refine ⟨pr', ?_, l2⟩
        rw [List.lookup_cons]
        have : (j == i) = false := by simpa using hji
        rw [this]; exact l1

theorem callAll_range (L : Lawful D Rep) (prs : List (Nat × (σ → Option σ))) : ∀ (n k : Nat) (ms : List Meaning),
    (∀ i, i < ms.length → ∃ pr, prs.lookup (k + i) = some pr ∧ Prints τ D Rep pr (ms.getD i ⟨[], 0, 0, 0⟩).text) → n = ms.length →
    Prints τ D Rep (callAll D ((List.range' k n).filterMap fun i => prs.lookup i)) (total ms).text := by
  intro n
  induction n with
  | zero =>
    intro k ms _ hn
    have : ms = [] := List.length_eq_zero_iff.1 hn.symm
    subst this
    exact Prints.nil
  | succ n ih =>
    intro k ms h hn
    cases ms with
    | nil => simp at hn
    | cons m ms =>
      obtain ⟨pr, e, hp⟩ := h 0 (by simp)
      have := ih (k + 1) ms (fun i hi => by
        obtain ⟨pr', e', hp'⟩ := h (i + 1) (by simpa using hi)
        exact ⟨pr', by rw [Nat.add_assoc, Nat.add_comm 1 i]; exact e', by simpa using hp'⟩) (by simpa using hn)
      rw [List.range'_succ, List.filterMap_cons]
      rw [Nat.add_zero] at e
      simp only [e]
      exact Prints.guarded L (by simpa using hp) this

theorem sum_lengths (ms : List Meaning) :
    ((List.range ms.length).map fun i => (ms.getD i ⟨[], 0, 0, 0⟩).text.length).sum = (total ms).text.length := by
  induction ms with
  | nil => rfl
  | cons m ms ih =>
    rw [List.length_cons, List.range_succ_eq_map, List.map_cons, List.sum_cons, List.map_map, total, List.length_append, ← ih]
    congr 1

/-- With reserve_calc, whatever the order of evaluation, the destination is created with exactly the size of the text (and the
end of line), and given that text. -/
theorem printCalc_spec (L : Lawful D Rep) (eol : Bool) {its : List (Item σ)} {ms : List Meaning}
    (h : AllMean τ D Rep B its ms) (order : List Nat) (ho : order.Perm (List.range its.length)) :
    ∃ pr, Prints τ D Rep pr (lineText eol (total ms).text) ∧
      ∀ create, printCalc D eol its order create = pr (create (lineText eol (total ms).text).length) := by
  rw [h.length] at ho
  obtain ⟨p, prs, e, hp, hpr⟩ := makeIn_spec h order 0 (ho.nodup_iff.2 List.nodup_range)
    fun i hi => List.mem_range.1 (ho.mem_iff.1 hi)
  have hsum : (order.map fun i => (ms.getD i ⟨[], 0, 0, 0⟩).text.length).sum = (total ms).text.length := by
    rw [← sum_lengths]; exact (ho.map _).sum_nat
  rw [hsum, Nat.zero_add] at hp
  refine ⟨fun s => (callAll D (inOrder its.length prs) s).bind (endLine D eol), ?_, ?_⟩
  · refine Prints.comp ?_ (endLine_prints L eol)
    unfold inOrder
    rw [h.length, List.range_eq_range']
    refine callAll_range L prs _ 0 ms (fun i hi => ?_) rfl
    rw [Nat.zero_add]
    exact hpr i (ho.mem_iff.2 (List.mem_range.2 hi))
  · intro create
    unfold printCalc
    rw [e]
    simp only [Option.bind_some]
    rw [hp]
    have hl : Pre.accSize ⟨some (total ms).text.length, none⟩ + eol.toNat = (lineText eol (total ms).text).length := by
      unfold Pre.accSize lineText
      cases eol <;> simp
    rw [hl]

theorem printItems (h : ∀ {it : Item σ} {m : Meaning}, it.Means τ D Rep B m → Prints τ D Rep it.print m.text)
    {its : List (Item σ)} {ms : List Meaning} (hm : AllMean τ D Rep B its ms) :
    ArgsPrint τ D Rep (its.map Item.print) (ms.map (·.text)) := by
  refine ⟨by simp [hm.length], ?_⟩
  intro i hi d
  have hi' : i < ms.length := by rw [← hm.length]; simpa using hi
  obtain ⟨it, e, k⟩ := hm.get i hi'
  have := h k
  rw [List.getElem_map]
  have e1 : its[i]'(by simpa using hi) = it := by
    have := List.getElem?_eq_getElem (l := its) (i := i) (by simpa using hi)
    rw [this] at e; exact Option.some.inj e
  rw [e1, List.getD_eq_getElem?_getD, List.getElem?_map, List.getElem?_eq_getElem hi']
  exact this

end Strf.Print

import Verif.Threads.Spec
import Verif.Dest.ArraysRep
import Mathlib.Logic.Function.Basic
import Mathlib.Tactic.Conv
/-!
# C88: threads with different destinations do not disturb one another
-/
namespace Strf.Threads
open Strf.Dest (Arr Loc Dest Lawful storeAt storeAt_length)
variable {α ι κ : Type}

/-! ## Garbage does not matter -/

theorem priv_on (p : Priv α) (g : List α) : priv (p.on g) = p := rfl

theorem on_priv (s : Arr α) : (priv s).on s.garb = s := rfl

theorem storeAt_any (g g' : List α) (h : g.length = g'.length) (i : Nat) (xs : List α) :
    (storeAt g i xs).isSome = (storeAt g' i xs).isSome := by
  unfold storeAt
  rw [h]
  split <;> rfl

/-- the same step with other garbage -/
theorem run_garbage (a : Act α) (s s' : Arr α) (hp : priv s = priv s') (hl : s.garb.length = s'.garb.length) :
    (a.run s).map priv = (a.run s').map priv ∧ ∀ r, a.run s = some r → r.garb.length = s.garb.length := by
  obtain ⟨arr, garb, ptr, end_, it, good⟩ := s
  obtain ⟨arr', garb', ptr', end', it', good'⟩ := s'
  simp only [priv, Priv.mk.injEq] at hp
  obtain ⟨rfl, rfl, rfl, rfl, rfl⟩ := hp
  have hst : ∀ i xs, (∃ g g', storeAt garb i xs = some g ∧ storeAt garb' i xs = some g' ∧ g.length = garb.length) ∨
      (storeAt garb i xs = none ∧ storeAt garb' i xs = none) := by
    intro i xs
    have := storeAt_any garb garb' hl i xs
    cases h1 : storeAt garb i xs with
    | none =>
      rw [h1] at this
      right; exact ⟨rfl, by simpa using this.symm⟩
    | some g =>
      rw [h1] at this
      obtain ⟨g', h2⟩ := Option.isSome_iff_exists.mp this.symm
      exact .inl ⟨g, g', rfl, h2, storeAt_length h1⟩
  have hpoke : ∀ xs, (Arr.poke ⟨arr, garb, ptr, end_, it, good⟩ xs).map priv = (Arr.poke ⟨arr, garb', ptr, end_, it, good⟩ xs).map priv ∧
      ∀ r, Arr.poke ⟨arr, garb, ptr, end_, it, good⟩ xs = some r → r.garb.length = garb.length := by
    intro xs
    unfold Arr.poke
    have hsp : Arr.space ⟨arr, garb, ptr, end_, it, good⟩ = Arr.space ⟨arr, garb', ptr, end_, it, good⟩ := rfl
    rw [hsp]
    split
    · cases ptr with
      | null => exact ⟨rfl, fun r e => by cases e⟩
      | user i =>
        dsimp only
        cases storeAt arr i xs with
        | none => exact ⟨rfl, fun r e => by cases e⟩
        | some a => exact ⟨rfl, fun r e => by cases e; rfl⟩
      | garbage i =>
        dsimp only
        rcases hst i xs with ⟨g, g', h1, h2, h3⟩ | ⟨h1, h2⟩
        · rw [h1, h2]; exact ⟨rfl, fun r e => by cases e; exact h3⟩
        · rw [h1, h2]; exact ⟨rfl, fun r e => by cases e⟩
    · exact ⟨rfl, fun r e => by cases e⟩
  cases a with
  | store c => exact hpoke [c]
  | recycle =>
    refine ⟨?_, ?_⟩
    · simp only [Act.run, Option.map_some, Arr.recycle]
      cases good <;> rfl
    · intro r e
      cases e
      simp only [Arr.recycle]
      cases good <;> rfl
  | write xs =>
    simp only [Act.run, Arr.doWrite]
    have hsp : Arr.space ⟨arr, garb, ptr, end_, it, good⟩ = Arr.space ⟨arr, garb', ptr, end_, it, good⟩ := rfl
    rw [hsp]
    split
    · exact ⟨rfl, fun r e => by cases e⟩
    · obtain ⟨h1, h2⟩ := hpoke (xs.take (Arr.space ⟨arr, garb', ptr, end_, it, good⟩))
      generalize Arr.poke ⟨arr, garb, ptr, end_, it, good⟩ (xs.take (Arr.space ⟨arr, garb', ptr, end_, it, good⟩)) = x at h1 h2
      generalize Arr.poke ⟨arr, garb', ptr, end_, it, good⟩ (xs.take (Arr.space ⟨arr, garb', ptr, end_, it, good⟩)) = x' at h1
      cases x with
      | none =>
        cases x' with
        | none => exact ⟨rfl, fun r e => by cases e⟩
        | some x' => cases h1
      | some x =>
        cases x' with
        | none => cases h1
        | some x' =>
          refine ⟨?_, fun r e => ?_⟩
          · simp only [Option.map_some, Option.some.injEq, priv, Priv.mk.injEq] at h1 ⊢
            exact ⟨h1.1, trivial, trivial, h1.2.2.1, trivial⟩
          · cases e; exact h2 x rfl
  | finish z =>
    simp only [Act.run, Arr.finishCstr]
    have key : ∀ (l : Loc) (gd : Bool), ((Arr.assign ⟨arr, garb, .garbage 0, .garbage 64, l, gd⟩ l z).map fun s' => (s', s'.it, !good)).map (fun r => priv r.1) =
        ((Arr.assign ⟨arr, garb', .garbage 0, .garbage 64, l, gd⟩ l z).map fun s' => (s', s'.it, !good)).map (fun r => priv r.1) ∧
        ∀ r, Arr.assign ⟨arr, garb, .garbage 0, .garbage 64, l, gd⟩ l z = some r → r.garb.length = garb.length := by
      intro l gd
      unfold Arr.assign
      cases l with
      | null => exact ⟨rfl, fun r e => by cases e⟩
      | user i =>
        dsimp only
        cases storeAt arr i [z] with
        | none => exact ⟨rfl, fun r e => by cases e⟩
        | some a => exact ⟨rfl, fun r e => by cases e; rfl⟩
      | garbage i =>
        dsimp only
        rcases hst i [z] with ⟨g, g', h1, h2, h3⟩ | ⟨h1, h2⟩
        · rw [h1, h2]; exact ⟨rfl, fun r e => by cases e; exact h3⟩
        · rw [h1, h2]; exact ⟨rfl, fun r e => by cases e⟩
    cases good with
    | true =>
      refine ⟨by simpa [Function.comp_def] using (key ptr false).1, fun r e => ?_⟩
      simp only [if_true, Option.map_map, Option.map_eq_some_iff] at e
      obtain ⟨q, e1, rfl⟩ := e
      exact (key ptr false).2 q e1
    | false =>
      refine ⟨by simpa [Function.comp_def] using (key it false).1, fun r e => ?_⟩
      simp only [Bool.false_eq_true, if_false, Option.map_map, Option.map_eq_some_iff] at e
      obtain ⟨q, e1, rfl⟩ := e
      exact (key it false).2 q e1
  | pause => exact ⟨rfl, fun r e => by cases e; rfl⟩

theorem alone_garbage (p : Prog α κ) (n : Nat) : ∀ (k : κ) (s s' : Arr α), priv s = priv s' → s.garb.length = s'.garb.length →
    (alone p n k s).map (fun r => (r.1, priv r.2)) = (alone p n k s').map (fun r => (r.1, priv r.2)) := by
  induction n with
  | zero => intro k s s' hp _; simp [alone, hp]
  | succ n ih =>
    intro k s s' hp hl
    obtain ⟨h1, h2⟩ := run_garbage (p k (priv s)).1 s s' hp hl
    have h2' := (run_garbage (p k (priv s)).1 s' s hp.symm hl.symm).2
    unfold alone
    rw [← hp]
    cases e : (p k (priv s)).1.run s with
    | none =>
      rw [e] at h1
      have : (p k (priv s)).1.run s' = none := by simpa using h1.symm
      rw [this]
    | some r =>
      rw [e] at h1
      obtain ⟨r', e', hr⟩ := Option.map_eq_some_iff.mp h1.symm
      rw [e']
      exact ih _ r r' hr.symm (by rw [h2 r e, h2' r' e', hl])

/-- C88: Whatever the number of threads, what each of them prints, and the order of their steps: if no thread alone goes wrong in as many steps, nothing goes wrong, and every
thread arrives where it arrives alone: the same array, the same result, the same state; whatever the buffer contains in the beginning. -/
theorem threads_isolated [DecidableEq ι] (P : ι → Prog α κ) (sched : List ι) : ∀ (y : Sys ι κ α) (garb : ι → List α),
    (∀ i, (garb i).length = y.garb.length) →
    (∀ i, (alone (P i) (sched.count i) (y.ctl i) ((y.dst i).on (garb i))).isSome) →
    ∃ y', y.run P sched = some y' ∧
      ∀ i, (alone (P i) (sched.count i) (y.ctl i) ((y.dst i).on (garb i))).map (fun r => (r.1, priv r.2)) = some (y'.ctl i, y'.dst i) := by
  induction sched with
  | nil => intro y garb _ _; exact ⟨y, rfl, fun i => rfl⟩
  | cons i l ih =>
    intro y garb hg hs
    have hi := hs i
    rw [List.count_cons_self] at hi
    unfold alone at hi
    have hrun := run_garbage (P i (y.ctl i) (y.dst i)).1 ((y.dst i).on (garb i)) ((y.dst i).on y.garb) rfl (hg i)
    rw [priv_on] at hi
    obtain ⟨r, er⟩ : ∃ r, (P i (y.ctl i) (y.dst i)).1.run ((y.dst i).on (garb i)) = some r := by
      cases e : (P i (y.ctl i) (y.dst i)).1.run ((y.dst i).on (garb i)) with
      | none => rw [e] at hi; cases hi
      | some r => exact ⟨r, rfl⟩
    rw [er] at hi hrun
    obtain ⟨r', er', hr⟩ := Option.map_eq_some_iff.mp hrun.1.symm
    have hrl := hrun.2 r rfl
    have hrl' := (run_garbage (P i (y.ctl i) (y.dst i)).1 ((y.dst i).on y.garb) ((y.dst i).on y.garb) rfl rfl).2 r' er'
    have estep : y.step P i = some ⟨Function.update y.ctl i (P i (y.ctl i) (y.dst i)).2, Function.update y.dst i (priv r'), r'.garb⟩ := by
      unfold Sys.step; dsimp only; rw [er']; rfl
    have hthis : ∀ j, alone (P j) ((i :: l).count j) (y.ctl j) ((y.dst j).on (garb j)) =
        alone (P j) (l.count j) (Function.update y.ctl i (P i (y.ctl i) (y.dst i)).2 j)
          ((Function.update y.dst i (priv r') j).on (Function.update garb i r.garb j)) := by
      intro j
      by_cases hj : j = i
      · subst hj
        rw [List.count_cons_self]
        simp only [Function.update_self]
        rw [hr, on_priv]
        conv_lhs => unfold alone
        rw [priv_on, er]; rfl
      · simp only [Function.update_of_ne hj]
        rw [List.count_cons_of_ne (fun h => hj h.symm)]
    obtain ⟨y', e, hy'⟩ := ih ⟨Function.update y.ctl i (P i (y.ctl i) (y.dst i)).2, Function.update y.dst i (priv r'), r'.garb⟩
      (Function.update garb i r.garb) (by
        intro j
        show (Function.update garb i r.garb j).length = r'.garb.length
        by_cases hj : j = i
        · subst hj; rw [Function.update_self, hrl', hrl]; exact hg j
        · rw [Function.update_of_ne hj, hrl']; exact hg j)
      (fun j => by rw [← hthis]; exact hs j)
    refine ⟨y', ?_, fun j => ?_⟩
    · show (y.step P i).bind _ = _
      rw [estep]; exact e
    · rw [hthis]; exact hy' j

/-- C88: And the other way around: what happens in an execution is what every thread does alone. -/
theorem threads_each_alone [DecidableEq ι] (P : ι → Prog α κ) (sched : List ι) : ∀ (y y' : Sys ι κ α) (garb : ι → List α),
    (∀ i, (garb i).length = y.garb.length) → y.run P sched = some y' →
    ∀ i, (alone (P i) (sched.count i) (y.ctl i) ((y.dst i).on (garb i))).map (fun r => (r.1, priv r.2)) = some (y'.ctl i, y'.dst i) := by
  induction sched with
  | nil => intro y y' garb _ e i; cases e; rfl
  | cons i l ih =>
    intro y y' garb hg e j
    have e : (y.step P i).bind (fun y => y.run P l) = some y' := e
    obtain ⟨y1, e1, e2⟩ := Option.bind_eq_some_iff.mp e
    have hrun := run_garbage (P i (y.ctl i) (y.dst i)).1 ((y.dst i).on y.garb) ((y.dst i).on (garb i)) rfl (hg i).symm
    have hrl' := (run_garbage (P i (y.ctl i) (y.dst i)).1 ((y.dst i).on (garb i)) ((y.dst i).on (garb i)) rfl rfl).2
    unfold Sys.step at e1
    dsimp only at e1
    obtain ⟨r', er', hy1⟩ := Option.map_eq_some_iff.mp e1
    rw [er'] at hrun
    obtain ⟨r, er, hr⟩ := Option.map_eq_some_iff.mp hrun.1.symm
    have hrl := hrun.2 r' rfl
    subst hy1
    rw [← ih _ y' (Function.update garb i r.garb) (by
        intro j
        show (Function.update garb i r.garb j).length = r'.garb.length
        by_cases hj : j = i
        · subst hj; rw [Function.update_self, hrl, hrl' r er]; exact hg j
        · rw [Function.update_of_ne hj, hrl]; exact hg j) e2 j]
    by_cases hj : j = i
    · subst hj
      rw [List.count_cons_self]
      simp only [Function.update_self]
      rw [← hr, on_priv]
      conv_lhs => unfold alone
      rw [priv_on, er]; rfl
    · simp only [Function.update_of_ne hj]
      rw [List.count_cons_of_ne (fun h => hj h.symm)]

/-! ## Which memory is written -/

/-- the element at a location -/
def cell (s : Arr α) : Loc → Option α
  | .user i => s.arr[i]?
  | .garbage i => s.garb[i]?
  | .null => none

theorem storeAt_get {b b' : List α} {i : Nat} {xs : List α} (h : storeAt b i xs = some b') (k : Nat) (hk : k < i ∨ i + xs.length ≤ k) :
    b'[k]? = b[k]? := by
  unfold storeAt at h
  split at h
  · cases h
    rename_i hl
    rcases hk with hk | hk
    · rw [List.append_assoc, List.getElem?_append_left (by simp; omega), List.getElem?_take_of_lt hk]
    · rw [List.getElem?_append_right (by simp; omega), List.getElem?_drop]
      congr 1
      simp; omega
  · cases h

/-- C88: A step of a thread changes no element but those in `writes`, and no array changes its size. -/
theorem writes_sound (a : Act α) (s s' : Arr α) (h : a.run s = some s') (l : Loc) (hl : l ∉ a.writes (priv s)) : cell s' l = cell s l := by
  have hpoke : ∀ xs s', Arr.poke s xs = some s' → (∀ i, s.ptr = .user i → ∀ k, l = .user k → k < i ∨ i + xs.length ≤ k) →
      (∀ i, s.ptr = .garbage i → ∀ k, l = .garbage k → k < i ∨ i + xs.length ≤ k) → cell s' l = cell s l := by
    intro xs s' e hu hg
    unfold Arr.poke at e
    split at e
    · cases hp : s.ptr with
      | null => rw [hp] at e; cases e
      | user i =>
        rw [hp] at e
        obtain ⟨a, ea, rfl⟩ := Option.map_eq_some_iff.mp e
        cases l with
        | null => rfl
        | garbage k => rfl
        | user k => exact storeAt_get ea k (hu i hp k rfl)
      | garbage i =>
        rw [hp] at e
        obtain ⟨a, ea, rfl⟩ := Option.map_eq_some_iff.mp e
        cases l with
        | null => rfl
        | user k => rfl
        | garbage k => exact storeAt_get ea k (hg i hp k rfl)
    · cases e
  cases a with
  | store c =>
    simp only [Act.writes, priv, List.mem_singleton] at hl
    refine hpoke [c] s' h (fun i e k ek => ?_) (fun i e k ek => ?_)
    · subst ek; rw [e] at hl
      have : k ≠ i := fun h => hl (h ▸ rfl)
      simp; omega
    · subst ek; rw [e] at hl
      have : k ≠ i := fun h => hl (h ▸ rfl)
      simp; omega
  | recycle =>
    cases h
    unfold Arr.recycle
    cases s.good <;> cases l <;> rfl
  | write xs =>
    have h : s.doWrite xs = some s' := h
    unfold Arr.doWrite at h
    dsimp only at h
    split at h
    · cases h
    · obtain ⟨s1, e1, rfl⟩ := Option.map_eq_some_iff.mp h
      have : cell s1 l = cell s l := by
        rename_i hlen
        refine hpoke _ s1 e1 (fun i e k ek => ?_) (fun i e k ek => ?_)
        · subst ek
          by_cases hk : k < i ∨ i + (xs.take s.space).length ≤ k
          · exact hk
          · exfalso
            apply hl
            have hsp : k < i + s.space := by
              have : (xs.take s.space).length ≤ s.space := by rw [List.length_take]; exact Nat.min_le_left _ _
              omega
            unfold Arr.space at hsp
            rw [e] at hsp
            simp only [Act.writes, priv, e]
            cases he : s.end_ with
            | user j => rw [he] at hsp; simp at hsp ⊢; omega
            | null => rw [he] at hsp; simp at hsp; omega
            | garbage j => rw [he] at hsp; simp at hsp; omega
        · subst ek
          by_cases hk : k < i ∨ i + (xs.take s.space).length ≤ k
          · exact hk
          · exfalso
            apply hl
            have hsp : k < i + s.space := by
              have : (xs.take s.space).length ≤ s.space := by rw [List.length_take]; exact Nat.min_le_left _ _
              omega
            unfold Arr.space at hsp
            rw [e] at hsp
            simp only [Act.writes, priv, e]
            cases he : s.end_ with
            | garbage j => rw [he] at hsp; simp at hsp ⊢; omega
            | null => rw [he] at hsp; simp at hsp; omega
            | user j => rw [he] at hsp; simp at hsp; omega
      rw [← this]
      cases l <;> rfl
  | finish z =>
    obtain ⟨r, e, rfl⟩ := Option.map_eq_some_iff.mp h
    have key : ∀ (q : Arr α) (p : Loc) q', q.arr = s.arr → q.garb = s.garb → l ≠ p → Arr.assign q p z = some q' → cell q' l = cell s l := by
      intro q p q' h1 h2 hp e
      unfold Arr.assign at e
      cases p with
      | null => cases e
      | user i =>
        obtain ⟨a, ea, rfl⟩ := Option.map_eq_some_iff.mp e
        cases l with
        | null => rfl
        | garbage k => show q.garb[k]? = _; rw [h2]; rfl
        | user k =>
          show a[k]? = s.arr[k]?
          have : k ≠ i := fun h => hp (h ▸ rfl)
          rw [storeAt_get ea k (by simp; omega), h1]
      | garbage i =>
        obtain ⟨a, ea, rfl⟩ := Option.map_eq_some_iff.mp e
        cases l with
        | null => rfl
        | user k => show q.arr[k]? = _; rw [h1]; rfl
        | garbage k =>
          show a[k]? = s.garb[k]?
          have : k ≠ i := fun h => hp (h ▸ rfl)
          rw [storeAt_get ea k (by simp; omega), h2]
    unfold Arr.finishCstr at e
    dsimp only at e
    obtain ⟨q, eq_, hq⟩ := Option.map_eq_some_iff.mp e
    subst hq
    have hl : l ≠ if s.good = true then s.ptr else s.it := fun h => hl (List.mem_singleton.mpr h)
    cases hgd : s.good with
    | true =>
      rw [hgd] at eq_ hl
      refine key _ _ q ?_ ?_ hl eq_ <;> rfl
    | false =>
      rw [hgd] at eq_ hl
      refine key _ _ q ?_ ?_ hl eq_ <;> rfl
  | pause => cases h; rfl

/-! ## Data races -/

theorem alone_prefix (p : Prog α κ) (k : κ) (s : Arr α) : ∀ n, ∀ r, alone p n k s = some r → ∀ m, m ≤ n → (alone p m k s).isSome := by
  intro n
  induction n generalizing k s with
  | zero => intro r _ m hm; obtain rfl := Nat.le_zero.mp hm; rfl
  | succ n ih =>
    intro r e m hm
    cases m with
    | zero => rfl
    | succ m =>
      unfold alone at e ⊢
      obtain ⟨q, e1, e2⟩ := Option.bind_eq_some_iff.mp e
      rw [e1]
      exact ih _ _ r e2 m (by omega)

theorem spills_of_step [DecidableEq ι] {P : ι → Prog α κ} {y y1 : Sys ι κ α} {garb : ι → List α} (hg : ∀ i, (garb i).length = y.garb.length)
    {sched : List ι} (e : y.run P sched = some y1) {i : ι} {k : Nat} (h : Place.shared k ∈ y1.writes P i) {n : Nat} (hn : sched.count i < n) :
    Spills (P i) n (y.ctl i) ((y.dst i).on (garb i)) := by
  have := threads_each_alone P sched y y1 garb hg e i
  obtain ⟨⟨k', s'⟩, ea, eb⟩ := Option.map_eq_some_iff.mp this
  simp only [Prod.mk.injEq] at eb
  obtain ⟨rfl, hp⟩ := eb
  obtain ⟨l, hl, hpl⟩ := List.mem_filterMap.mp h
  refine ⟨_, _, _, k, hn, ea, ?_⟩
  rw [hp]
  cases l with
  | null => cases hpl
  | user m => cases hpl
  | garbage m => cases hpl; exact hl

theorem own_writes {P : ι → Prog α κ} {y : Sys ι κ α} {i j : ι} {k : Nat} (h : Place.own j k ∈ y.writes P i) : j = i := by
  obtain ⟨l, _, e⟩ := List.mem_filterMap.mp h
  cases l <;> cases e
  rfl

/-- C88: The only memory where two threads with different destinations can race is the garbage buffer, and only if two of them have more to write than their arrays
take: with at most one such thread an execution has no data race. -/
theorem race_needs_two_spills [DecidableEq ι] {P : ι → Prog α κ} {y : Sys ι κ α} {sched : List ι} {pl : Place ι} (h : Race P y sched pl)
    {garb : ι → List α} (hg : ∀ i, (garb i).length = y.garb.length) :
    (∃ k, pl = .shared k) ∧ ∃ i j, i ≠ j ∧ Spills (P i) (sched.count i) (y.ctl i) ((y.dst i).on (garb i)) ∧
      Spills (P j) (sched.count j) (y.ctl j) ((y.dst j).on (garb j)) := by
  obtain ⟨a, b, c, i, j, y1, y2, rfl, hij, e1, e2, h1, h2⟩ := h
  cases pl with
  | own o k => exact absurd ((own_writes h1).symm.trans (own_writes h2)) hij
  | shared k =>
    refine ⟨⟨k, rfl⟩, i, j, hij, spills_of_step hg e1 h1 ?_, spills_of_step hg e2 h2 ?_⟩
    · simp only [List.count_append, List.count_cons_self]; omega
    · rw [List.count_append (l₂ := j :: c), List.count_cons_self]; omega

/-- the window of a destination is in its array while it is good, and in the garbage buffer afterwards -/
def Windowed (p : Priv α) : Prop :=
  if p.good then (∃ i, p.ptr = .user i) ∧ ∃ j, p.end_ = .user j
  else (∃ i, p.ptr = .garbage i) ∧ (∃ j, p.end_ = .garbage j)

theorem windowed_run {a : Act α} {s s' : Arr α} (h : a.run s = some s') (w : Windowed (priv s)) :
    Windowed (priv s') ∧ (s'.good = true → s.good = true) := by
  have hpoke : ∀ xs s', Arr.poke s xs = some s' → Windowed (priv s') ∧ (s'.good = true → s.good = true) := by
    intro xs s' e
    unfold Arr.poke at e
    split at e
    · cases hp : s.ptr with
      | null => rw [hp] at e; cases e
      | user i =>
        rw [hp] at e
        obtain ⟨a, _, rfl⟩ := Option.map_eq_some_iff.mp e
        refine ⟨?_, id⟩
        unfold Windowed at w ⊢
        simp only [priv, hp] at w ⊢
        cases hgd : s.good <;> rw [hgd] at w <;> simp at w ⊢
        exact w
      | garbage i =>
        rw [hp] at e
        obtain ⟨a, _, rfl⟩ := Option.map_eq_some_iff.mp e
        refine ⟨?_, id⟩
        unfold Windowed at w ⊢
        simp only [priv, hp] at w ⊢
        cases hgd : s.good <;> rw [hgd] at w <;> simp at w ⊢
        exact w
    · cases e
  cases a with
  | store c => exact hpoke [c] s' h
  | recycle =>
    cases h
    unfold Arr.recycle
    unfold Windowed at w ⊢
    cases hgd : s.good
    · simp only [priv, hgd] at w ⊢; simp [hgd] at w ⊢; exact w.2
    · simp [priv]
  | write xs =>
    have h : s.doWrite xs = some s' := h
    unfold Arr.doWrite at h
    dsimp only at h
    split at h
    · cases h
    · obtain ⟨s1, e1, rfl⟩ := Option.map_eq_some_iff.mp h
      simp [Windowed, priv]
  | finish z =>
    obtain ⟨r, e, rfl⟩ := Option.map_eq_some_iff.mp h
    unfold Arr.finishCstr at e
    dsimp only at e
    obtain ⟨q, eq_, hq⟩ := Option.map_eq_some_iff.mp e
    subst hq
    have key : ∀ (q p : Arr α) (l : Loc), Arr.assign p l z = some q → priv q = { priv p with arr := q.arr } := by
      intro q p l e
      unfold Arr.assign at e
      cases l with
      | null => cases e
      | user i => obtain ⟨a, _, rfl⟩ := Option.map_eq_some_iff.mp e; rfl
      | garbage i => obtain ⟨a, _, rfl⟩ := Option.map_eq_some_iff.mp e; rfl
    have := key _ _ _ eq_
    have hg' : q.good = false := by
      have h := congrArg Priv.good this
      cases hgd : s.good <;> rw [hgd] at h <;> simpa [priv, hgd] using h
    refine ⟨?_, fun h => ?_⟩
    · rw [this]
      unfold Windowed
      cases hgd : s.good <;> simp [priv, hgd]
    · rw [hg'] at h; cases h
  | pause => cases h; exact ⟨w, id⟩

theorem windowed_alone (p : Prog α κ) (n : Nat) : ∀ k (s : Arr α) k' s', alone p n k s = some (k', s') → Windowed (priv s) → Windowed (priv s') := by
  induction n with
  | zero => intro k s k' s' e w; cases e; exact w
  | succ n ih =>
    intro k s k' s' e w
    unfold alone at e
    obtain ⟨r, e1, e2⟩ := Option.bind_eq_some_iff.mp e
    exact ih _ r k' s' e2 (windowed_run e1 w).1

/-- C88: A thread that spills has a destination that is not good any more: its text is truncated. -/
theorem spills_truncated {p : Prog α κ} {n : Nat} {k : κ} {s : Arr α} (w : Windowed (priv s)) (h : Spills p n k s) :
    ∃ m k' s', m < n ∧ alone p m k s = some (k', s') ∧ s'.good = false := by
  obtain ⟨m, k', s', g, hm, e, hg⟩ := h
  refine ⟨m, k', s', hm, e, ?_⟩
  have w' := windowed_alone p m k s k' s' e w
  cases hgd : s'.good with
  | false => rfl
  | true =>
    unfold Windowed at w'
    simp only [priv, hgd, if_true] at w'
    obtain ⟨⟨i, hi⟩, j, hj⟩ := w'
    cases ha : (p k' (priv s')).1 with
    | store c => rw [ha] at hg; simp [Act.writes, priv, hi] at hg
    | recycle => rw [ha] at hg; simp [Act.writes] at hg
    | write xs => rw [ha] at hg; simp [Act.writes, priv, hi, hj] at hg
    | finish z => rw [ha] at hg; simp [Act.writes, priv, hi, hgd] at hg
    | pause => rw [ha] at hg; simp [Act.writes] at hg

theorem windowed_initCstr (arr garb : List α) : Windowed (priv (Arr.initCstr arr garb)) := by simp [Windowed, priv, Arr.initCstr]

theorem windowed_initArray (arr garb : List α) : Windowed (priv (Arr.initArray arr garb)) := by simp [Windowed, priv, Arr.initArray]

/-! ## The data race -/

/-- a thread that does the actions in a list -/
def script : Prog α (List (Act α)) := fun k _ =>
  match k with
  | [] => (.pause, [])
  | a :: l => (a, l)

/-- what `strf::to(array)(12345)` does to an array of less than six elements: `ensure(5)` calls `recycle()`, then the digits are stored, then `finish()` -/
def spilling : List (Act Nat) := .recycle :: [0x31, 0x32, 0x33, 0x34, 0x35].map .store ++ [.finish 0]

/-- C88 fails: two threads, each with an array of four `char` of its own, that call `strf::to(array)(12345)`: both write to the first element of the garbage buffer. -/
theorem garbage_race_wrong :
    let garb := List.replicate 64 0
    let y : Sys Bool (List (Act Nat)) Nat := ⟨fun _ => spilling, fun _ => priv (Arr.initCstr [0, 0, 0, 0] garb), garb⟩
    Race (fun _ => script) y [false, true, false, true] (.shared 0) := by
  intro garb y
  exact ⟨[false, true], [], [], false, true, _, _, rfl, by decide, rfl, rfl, by decide, by decide⟩

/-- a case: three threads, of which the first and the last print 12345 to an array too small, and the second "ab" to a large one, with any order of eight steps each -/
example (sched : List (Fin 3)) (h : ∀ i, sched.count i ≤ 8) :
    let dst : Fin 3 → Priv Nat := fun i => priv (Arr.initCstr (List.replicate (if i = 1 then 9 else 4) 7) (List.replicate 64 0))
    let y : Sys (Fin 3) (List (Act Nat)) Nat := ⟨fun i => if i = 1 then [.store 0x61, .store 0x62, .finish 0] else spilling, dst, List.replicate 64 0⟩
    ∀ i, (alone script (sched.count i) (y.ctl i) ((y.dst i).on (List.replicate 64 1))).isSome := by
  intro dst y i
  have key : ∀ i : Fin 3, ∀ n, n < 9 → (alone script n (y.ctl i) ((y.dst i).on (List.replicate 64 1))).isSome := by decide +kernel
  exact key i _ (Nat.lt_succ_of_le (h i))

/-- and at the end of the second thread "ab" is in its array -/
example : (alone script 3 [.store 0x61, .store 0x62, .finish 0] (Arr.initCstr (List.replicate 9 7) (List.replicate 64 1))).map (fun r => r.2.arr) =
    some [0x61, 0x62, 0, 7, 7, 7, 7, 7, 7] := by decide +kernel

end Strf.Threads

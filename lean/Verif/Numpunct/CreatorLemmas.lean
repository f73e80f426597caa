import Verif.Numpunct.Lemmas
/-
Lemmas: `digits_grouping_creator`, the C-string constructor, and facts about the specification's splitting.
-/
namespace Strf.Numpunct
open Spec

/-- pushing a list of groups -/
def pushAll (c : Creator) (gs : List Int) : Creator := gs.foldl Creator.push c

theorem revEnc_ge (gs : List Nat) (h : ∀ g ∈ gs, 1 ≤ g ∧ g ≤ 31) : gs ≠ [] → 32 ^ (gs.length - 1) ≤ revEnc gs := by
  induction gs with
  | nil => intro h; exact absurd rfl h
  | cons g gs ih =>
    intro _
    have hg := h g (by simp)
    cases gs with
    | nil => simp [revEnc]; omega
    | cons g2 gs =>
      have := ih (fun x hx => h x (by simp [hx])) (by simp)
      simp only [revEnc, List.length_cons, Nat.add_sub_cancel, Nat.pow_succ] at this ⊢
      omega

theorem push_ok (r : List Nat) (h : ∀ g ∈ r, 1 ≤ g ∧ g ≤ 31) (hl : r.length ≤ 5) (g : Nat) (hg : 1 ≤ g ∧ g ≤ 31) :
    Creator.push ⟨revEnc r, false⟩ (g : Int) = ⟨revEnc (g :: r), false⟩ := by
  have hlt := revEnc_lt25 r h hl
  have hp := pushLow_revEnc r g h hl hg.2
  unfold pushLow at hp
  unfold Creator.push Creator.enough
  have e : (false || decide ((g : Int) < 1) || decide ((g : Int) > 31) || !decide (revEnc r < 2 ^ 25)) = false := by
    simp; omega
  dsimp only
  rw [e, Int.toNat_natCast, hp]
  rfl

theorem push_bad (c : Creator) (g : Int) (h : c.failed = true ∨ g < 1 ∨ 31 < g ∨ ¬ c.rev < 2 ^ 25) :
    (c.push g).failed = true := by
  unfold Creator.push Creator.enough
  have e : (c.failed || decide (g < 1) || decide (g > 31) || !decide (c.rev < 2 ^ 25)) = true := by
    rcases h with h | h | h | h <;> simp [h]
  rw [e]; rfl

theorem pushAll_failed (c : Creator) (h : c.failed = true) (gs : List Int) : (pushAll c gs).failed = true := by
  induction gs generalizing c with
  | nil => exact h
  | cons g gs ih => exact ih _ (push_bad c g (Or.inl h))

theorem pushAll_ok (r gs : List Nat) (hr : ∀ g ∈ r, 1 ≤ g ∧ g ≤ 31) (h : ∀ g ∈ gs, 1 ≤ g ∧ g ≤ 31)
    (hl : r.length + gs.length ≤ 6) :
    pushAll ⟨revEnc r, false⟩ (gs.map Int.ofNat) = ⟨revEnc (gs.reverse ++ r), false⟩ := by
  induction gs generalizing r with
  | nil => rfl
  | cons g gs ih =>
    have hg := h g (by simp)
    have hl' : r.length + gs.length + 1 ≤ 6 := by simpa [Nat.add_assoc] using hl
    show pushAll (Creator.push ⟨revEnc r, false⟩ (g : Int)) (gs.map Int.ofNat) = _
    rw [push_ok r hr (by omega) g hg, ih (g :: r) (by
      intro x hx; rcases List.mem_cons.mp hx with rfl | hx
      · exact hg
      · exact hr x hx) (fun x hx => h x (by simp [hx])) (by simp; omega)]
    simp

theorem pushAll_bad (r : List Nat) (gs : List Int) (hr : ∀ g ∈ r, 1 ≤ g ∧ g ≤ 31) (hrl : r.length ≤ 6)
    (hb : 6 < r.length + gs.length ∨ ∃ g ∈ gs, g < 1 ∨ 31 < g) :
    (pushAll ⟨revEnc r, false⟩ gs).failed = true := by
  induction gs generalizing r with
  | nil => rcases hb with h | ⟨g, hg, _⟩
           · simp at h; omega
           · simp at hg
  | cons g gs ih =>
    show (pushAll (Creator.push ⟨revEnc r, false⟩ g) gs).failed = true
    by_cases hg : g < 1 ∨ 31 < g
    · exact pushAll_failed _ (push_bad _ g (by rcases hg with h | h <;> simp [h])) gs
    · by_cases hl : r.length ≤ 5
      · obtain ⟨g, rfl⟩ : ∃ k : Nat, g = (k : Int) := ⟨g.toNat, by omega⟩
        rw [push_ok r hr hl g (by omega)]
        refine ih (g :: r) ?_ (by simp; omega) ?_
        · intro x hx; rcases List.mem_cons.mp hx with rfl | hx
          · omega
          · exact hr x hx
        · rcases hb with h | ⟨y, hy, h⟩
          · left; simp at h ⊢; omega
          · right
            rcases List.mem_cons.mp hy with rfl | hy
            · exact absurd h hg
            · exact ⟨y, hy, h⟩
      · refine pushAll_failed _ (push_bad _ g (Or.inr (Or.inr (Or.inr ?_)))) gs
        have hr6 : r.length = 6 := by omega
        have := revEnc_ge r hr (by intro h; rw [h] at hr6; simp at hr6)
        rw [hr6] at this
        have h3 : (32 : Nat) ^ (6 - 1) = 2 ^ 25 := by decide
        show ¬ revEnc r < 2 ^ 25
        omega

theorem popAll_revEnc (rep : Bool) (r acc : List Nat) (hr : ∀ g ∈ r, 1 ≤ g ∧ g ≤ 31)
    (ha : ∀ g ∈ acc, 1 ≤ g ∧ g ≤ 31) (hl : r.length + acc.length ≤ 6) :
    popAll (revEnc r) (enc rep acc) = enc rep (r.reverse ++ acc) := by
  induction r generalizing acc with
  | nil => rw [revEnc, popAll]; rfl
  | cons g r ih =>
    have hg := hr g (by simp)
    have hl' : r.length + acc.length + 1 ≤ 6 := by simp at hl; omega
    rw [popAll, dif_neg (by simp only [revEnc]; omega)]
    have e1 : revEnc (g :: r) / 32 = revEnc r := by simp only [revEnc]; omega
    have e2 : revEnc (g :: r) % 32 = g := by simp only [revEnc]; omega
    rw [e1, e2, shl5_or _ _ (enc_lt27 rep acc ha (by omega)) (by omega)]
    have e3 : 32 * enc rep acc + g = enc rep (g :: acc) := by simp only [enc]; omega
    rw [e3, ih (g :: acc) (fun x hx => hr x (by simp [hx])) (by
      intro x hx; rcases List.mem_cons.mp hx with rfl | hx
      · exact hg
      · exact ha x hx) (by simp; omega)]
    simp

theorem skipEqual_revEnc (r : List Nat) (hi : Nat) (hr : ∀ g ∈ r, 1 ≤ g ∧ g ≤ 31) :
    skipEqual (revEnc r) hi = revEnc (r.dropWhile (· == hi)) := by
  induction r with
  | nil => rw [revEnc, skipEqual]; rfl
  | cons g r ih =>
    have hg := hr g (by simp)
    rw [skipEqual, dif_neg (by simp only [revEnc]; omega)]
    have e1 : revEnc (g :: r) / 32 = revEnc r := by simp only [revEnc]; omega
    have e2 : revEnc (g :: r) % 32 = g := by simp only [revEnc]; omega
    rw [e1, e2, ih (fun x hx => hr x (by simp [hx]))]
    by_cases h : g = hi
    · simp [h]
    · simp [h]

theorem takeWhile_eq_replicate (r : List Nat) (hi : Nat) :
    ∃ k, r = List.replicate k hi ++ r.dropWhile (· == hi) := by
  induction r with
  | nil => exact ⟨0, rfl⟩
  | cons g r ih =>
    by_cases h : g = hi
    · subst h
      obtain ⟨k, hk⟩ := ih
      refine ⟨k + 1, ?_⟩
      simp only [List.dropWhile_cons, beq_self_eq_true, if_true, List.replicate_succ, List.cons_append]
      rw [← hk]
    · exact ⟨0, by simp [h]⟩

theorem groupSize_tail (a : List Nat) (k hi i : Nat) :
    groupSize (a ++ List.replicate (k + 1) hi) true i = if i < a.length then a[i]? else some hi := by
  unfold groupSize
  by_cases h : i < a.length
  · rw [if_pos h, if_pos (by simp; omega), List.getElem?_append_left h]
  · rw [if_neg h]
    by_cases h2 : i < (a ++ List.replicate (k + 1) hi).length
    · rw [if_pos h2, List.getElem?_append_right (by omega), List.getElem?_replicate]
      rw [if_pos (by simp at h2; omega)]
    · rw [if_neg h2, List.replicate_succ']
      simp

theorem splitFrom_congr (gs gs' : List Nat) (rep rep' : Bool) (h : ∀ i, groupSize gs rep i = groupSize gs' rep' i)
    (fuel i n : Nat) : splitFrom gs rep fuel i n = splitFrom gs' rep' fuel i n := by
  induction fuel generalizing i n with
  | zero => rfl
  | succ fuel ih => simp only [splitFrom, h, ih]

/-- what `finish()` stores, for groups `gs` pushed -/
def squeeze (gs : List Nat) : List Nat :=
  match gs.reverse with
  | [] => []
  | hi :: r => (r.dropWhile (· == hi)).reverse ++ [hi]

theorem mem_of_mem_dropWhile (r : List Nat) (p : Nat → Bool) (x : Nat) (h : x ∈ r.dropWhile p) : x ∈ r :=
  (List.dropWhile_sublist p).subset h

theorem squeeze_groupSize (gs : List Nat) (hne : gs ≠ []) (i : Nat) :
    groupSize (squeeze gs) true i = groupSize gs true i := by
  unfold squeeze
  cases hr : gs.reverse with
  | nil => simp at hr; exact absurd hr hne
  | cons hi r =>
    have hgs : gs = r.reverse ++ [hi] := by
      have := congrArg List.reverse hr; simpa using this
    obtain ⟨k, hk⟩ := takeWhile_eq_replicate r hi
    have e : gs = (r.dropWhile (· == hi)).reverse ++ List.replicate (k + 1) hi := by
      rw [hgs]
      conv => lhs; rw [hk]
      rw [List.reverse_append, List.append_assoc, List.reverse_replicate, List.replicate_succ']
    dsimp only
    rw [show [hi] = List.replicate (0 + 1) hi from rfl, groupSize_tail, e, groupSize_tail]

theorem squeeze_valid (gs : List Nat) (hne : gs ≠ []) (h : Valid gs true) : Valid (squeeze gs) true := by
  unfold squeeze
  cases hr : gs.reverse with
  | nil => simp at hr; exact absurd hr hne
  | cons hi r =>
    have hgs : gs = r.reverse ++ [hi] := by
      have := congrArg List.reverse hr; simpa using this
    obtain ⟨hl, hg, _⟩ := h
    dsimp only
    refine ⟨?_, ?_, by simp⟩
    · have := (List.dropWhile_sublist (l := r) (· == hi)).length_le
      rw [hgs] at hl; simp at hl ⊢; omega
    · intro g hm
      apply hg
      rw [hgs]
      simp only [List.mem_append, List.mem_reverse, List.mem_singleton] at hm ⊢
      rcases hm with hm | hm
      · exact Or.inl (mem_of_mem_dropWhile _ _ _ hm)
      · exact Or.inr hm

theorem finish_ok (gs : List Nat) (hne : gs ≠ []) (hl : gs.length ≤ 6) (h : ∀ g ∈ gs, 1 ≤ g ∧ g ≤ 31) :
    (Creator.mk (revEnc gs.reverse) false).finish = enc true (squeeze gs) := by
  unfold squeeze
  have hr' : ∀ g ∈ gs.reverse, 1 ≤ g ∧ g ≤ 31 := fun g hg => h g (by simpa using hg)
  cases hr : gs.reverse with
  | nil => simp at hr; exact absurd hr hne
  | cons hi r =>
    rw [hr] at hr'
    have hhi := hr' hi (by simp)
    have hrr : ∀ g ∈ r, 1 ≤ g ∧ g ≤ 31 := fun x hx => hr' x (by simp [hx])
    have hlen : r.length ≤ 5 := by
      have := congrArg List.length hr; simp at this; omega
    have e1 : revEnc (hi :: r) / 32 = revEnc r := by simp only [revEnc]; omega
    have e2 : revEnc (hi :: r) % 32 = hi := by simp only [revEnc]; omega
    have e0 : (revEnc (hi :: r) == 0) = false := by simp [revEnc]; omega
    unfold Creator.finish
    dsimp only
    rw [e0, e1, e2, skipEqual_revEnc r hi hrr, shl5_or _ _ (by decide) (by omega)]
    have e3 : 32 * repeatLast + hi = enc true [hi] := by simp only [enc, repeatLast]; simp; omega
    rw [e3, popAll_revEnc true _ [hi] (fun g hg => hrr g (mem_of_mem_dropWhile _ _ _ hg)) (by
      intro x hx; rw [List.mem_singleton] at hx; rw [hx]; exact hhi) (by
      have := (List.dropWhile_sublist (l := r) (· == hi)).length_le
      simp; omega)]
    rfl

theorem finishNo_ok (gs : List Nat) (hl : gs.length ≤ 6) (h : ∀ g ∈ gs, 1 ≤ g ∧ g ≤ 31) :
    (Creator.mk (revEnc gs.reverse) false).finishNoMoreSep = enc false gs := by
  unfold Creator.finishNoMoreSep
  by_cases hne : gs = []
  · subst hne; rfl
  · have hr' : ∀ g ∈ gs.reverse, 1 ≤ g ∧ g ≤ 31 := fun g hg => h g (by simpa using hg)
    have h0 : 1 ≤ revEnc gs.reverse := by
      have := revEnc_ge gs.reverse hr' (by simpa using hne)
      have h1 : 1 ≤ 32 ^ (gs.reverse.length - 1) := Nat.pow_pos (by decide)
      omega
    have e0 : (revEnc gs.reverse == 0) = false := by simp; omega
    dsimp only
    rw [e0]
    have := popAll_revEnc false gs.reverse [] hr' (by simp) (by simpa using hl)
    rw [List.reverse_reverse, List.append_nil] at this
    exact this

theorem strLoop_groups (c : Creator) (gs rest : List Nat) (h : ∀ g ∈ gs, 1 ≤ g ∧ g ≤ 127) :
    strLoop c (gs ++ rest) = strLoop (pushAll c (gs.map Int.ofNat)) rest := by
  induction gs generalizing c with
  | nil => rfl
  | cons g gs ih =>
    have hg := h g (by simp)
    rw [List.cons_append, strLoop, if_neg (by omega), if_neg (by omega), ih _ (fun x hx => h x (by simp [hx]))]
    rfl

/-! facts about `split` -/
theorem splitFrom_sum (gs : List Nat) (rep : Bool) (fuel i n : Nat) : (splitFrom gs rep fuel i n).sum = n := by
  induction fuel generalizing i n with
  | zero => simp [splitFrom]
  | succ fuel ih =>
    simp only [splitFrom]
    split
    · simp
    · split
      · simp
      · simp [ih]; omega

theorem splitFrom_pos (gs : List Nat) (rep : Bool) (hs : ∀ i g, groupSize gs rep i = some g → 1 ≤ g)
    (fuel i n : Nat) (hn : 1 ≤ n) : ∀ x ∈ splitFrom gs rep fuel i n, 1 ≤ x := by
  induction fuel generalizing i n with
  | zero => simp [splitFrom]; omega
  | succ fuel ih =>
    simp only [splitFrom]
    split
    · simp; omega
    · rename_i g hg
      split
      · simp; omega
      · intro x hx
        rcases List.mem_cons.mp hx with rfl | hx
        · exact hs _ _ hg
        · exact ih _ _ (by omega) x hx

/-- `Boundary` counted from group `i` on -/
def BoundaryFrom (gs : List Nat) (rep : Bool) (i k : Nat) : Prop :=
  ∃ sizes : List Nat, sizes ≠ [] ∧ sizes.sum = k ∧
    ∀ j, j < sizes.length → groupSize gs rep (i + j) = sizes[j]?

theorem splitFrom_cuts (gs : List Nat) (rep : Bool) (hs : ∀ i g, groupSize gs rep i = some g → 1 ≤ g)
    (fuel i n k : Nat) (hn : 1 ≤ n) (hf : n ≤ fuel) :
    (∃ j, 1 ≤ j ∧ j < (splitFrom gs rep fuel i n).length ∧ k = ((splitFrom gs rep fuel i n).take j).sum) ↔
      k < n ∧ BoundaryFrom gs rep i k := by
  induction fuel generalizing i n k with
  | zero => omega
  | succ fuel ih =>
    simp only [splitFrom]
    have key : ∀ sizes : List Nat, sizes ≠ [] →
        (∀ j, j < sizes.length → groupSize gs rep (i + j) = sizes[j]?) →
        ∃ g rest, sizes = g :: rest ∧ groupSize gs rep i = some g := by
      intro sizes hne h
      cases sizes with
      | nil => exact absurd rfl hne
      | cons g rest => exact ⟨g, rest, rfl, by simpa using h 0 (by simp)⟩
    split
    · rename_i hnone
      constructor
      · rintro ⟨j, h1, h2, _⟩; simp at h2; omega
      · rintro ⟨_, sizes, hne, _, h⟩
        obtain ⟨g, _, _, e⟩ := key sizes hne h
        rw [hnone] at e; cases e
    · rename_i g hg
      split
      · constructor
        · rintro ⟨j, h1, h2, _⟩; simp at h2; omega
        · rintro ⟨hk, sizes, hne, hsum, h⟩
          obtain ⟨g', rest, rfl, e⟩ := key sizes hne h
          rw [hg] at e; cases e
          simp at hsum; omega
      · rename_i hlt
        have hg1 := hs _ _ hg
        have ih' := ih (i + 1) (n - g) (k - g) (by omega) (by omega)
        constructor
        · rintro ⟨j, h1, h2, h3⟩
          by_cases hj : j = 1
          · subst hj
            simp at h3
            refine ⟨by omega, [g], by simp, by simp [h3], ?_⟩
            intro j hj
            have : j = 0 := by simpa using hj
            subst this; simpa using hg
          · obtain ⟨j, rfl⟩ : ∃ m, j = m + 1 := ⟨j - 1, by omega⟩
            rw [List.take_succ_cons, List.sum_cons] at h3
            obtain ⟨a, sizes, b, c, d⟩ := ih'.mp ⟨j, by omega, by simp at h2; omega, by omega⟩
            refine ⟨by omega, g :: sizes, by simp, by simp [c]; omega, ?_⟩
            intro m hm
            cases m with
            | zero => simpa using hg
            | succ m =>
              have := d m (by simpa using hm)
              rw [List.getElem?_cons_succ, ← this]
              congr 1; omega
        · rintro ⟨hk, sizes, hne, hsum, h⟩
          obtain ⟨g', rest, rfl, e⟩ := key sizes hne h
          rw [hg] at e; cases e
          by_cases hr : rest = []
          · subst hr
            refine ⟨1, by omega, ?_, by simp at hsum ⊢; omega⟩
            have := splitFrom_length_pos gs rep fuel (i + 1) (n - g)
            simp; omega
          · rw [List.sum_cons] at hsum
            obtain ⟨j, h1, h2, h3⟩ := ih'.mpr ⟨by omega, rest, hr, by omega, by
              intro j hj
              have := h (j + 1) (by simpa using hj)
              rw [List.getElem?_cons_succ] at this
              rw [← this]; congr 1; omega⟩
            refine ⟨j + 1, by omega, by simpa using h2, ?_⟩
            rw [List.take_succ_cons, List.sum_cons, ← h3]; omega

theorem groupSize_mem (gs : List Nat) (rep : Bool) (i g : Nat) (h : groupSize gs rep i = some g) : g ∈ gs := by
  unfold groupSize at h
  split at h
  · exact List.mem_of_getElem? h
  · split at h
    · exact List.mem_of_getLast? h
    · cases h

end Strf.Numpunct

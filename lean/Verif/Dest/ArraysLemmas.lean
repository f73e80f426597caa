import Verif.Dest.Lawful
import Verif.Dest.Arrays
/- One-step lemmas about the array destinations. -/
namespace Strf.Dest
variable {α : Type}

/-- the history never asks an already truncated destination to `write` more characters than its remaining
(garbage) space -/
def SafeLate {σ : Type} (D : Dest α σ) : σ → List (Op α) → Prop
  | _, [] => True
  | s, op :: ops =>
    (∀ xs, op = .write xs → D.good s = true ∨ xs.length ≤ D.space s) ∧
      ∀ s', op.run D s = some s' → SafeLate D s' ops

/-- an operation that writes through `write`, `put` or `write_fill` -/
def Op.Plain : Op α → Prop
  | .raw _ _ => False
  | .flush => False
  | _ => True

/-- an operation that asks for no more space than it uses -/
def Op.Exact : Op α → Prop
  | .raw n xs => n = xs.length
  | .flush => False
  | _ => True

namespace Arr

/-- not truncated: the window is what is left of the user's array -/
def InvGood (N cap : Nat) (s : Arr α) (t : List α) : Prop :=
  s.good = true ∧ s.ptr = .user t.length ∧ s.end_ = .user cap ∧ t.length ≤ cap ∧ cap ≤ s.arr.length ∧
    s.arr.length = N ∧ s.garb.length = 64 ∧ s.arr.take t.length = t

/-- truncated at `k`; the window is in the garbage buffer -/
def InvBad (s : Arr α) (A : List α) (k : Nat) : Prop :=
  s.good = false ∧ (∃ g, g ≤ 64 ∧ s.ptr = .garbage g) ∧ s.end_ = .garbage 64 ∧ s.garb.length = 64 ∧
    s.it = .user k ∧ s.arr = A

theorem bad_poke {s : Arr α} {A : List α} {k : Nat} (h : InvBad s A k) (xs : List α)
    (hx : xs.length ≤ s.space) : ∃ s', poke s xs = some s' ∧ InvBad s' A k := by
  obtain ⟨h1, ⟨g, hg, h2⟩, h3, h4, h5, h6⟩ := h
  have hsp : s.space = 64 - g := by simp [space, h2, h3]
  obtain ⟨b, e, hl, _, _⟩ := storeAt_some (buf := s.garb) (i := g) (xs := xs) (by omega)
  refine ⟨{ s with garb := b, ptr := .garbage (g + xs.length) }, ?_, h1, ⟨_, by omega, rfl⟩, h3, ?_, h5, h6⟩
  · rw [poke, if_pos hx, h2]; simp [e]
  · simp [hl, h4]

theorem bad_recycle {s : Arr α} {A : List α} {k : Nat} (h : InvBad s A k) :
    InvBad (recycle s) A k ∧ (recycle s).space = 64 := by
  obtain ⟨h1, ⟨g, hg, h2⟩, h3, h4, h5, h6⟩ := h
  simp only [recycle, h1]
  refine ⟨⟨h1, ⟨0, by omega, rfl⟩, h3, h4, h5, h6⟩, ?_⟩
  simp [space, h3]

theorem bad_op {s : Arr α} {A : List α} {k : Nat} (h : InvBad s A k) (op : Op α) (hop : op.Ok)
    (hl : ∀ xs, op = .write xs → s.good = true ∨ xs.length ≤ s.space) :
    ∃ s', op.run dest s = some s' ∧ InvBad s' A k := by
  cases op with
  | write xs =>
    simp only [Op.run, Dest.write, dest]
    have := hl xs rfl
    split
    · rw [if_pos (by rcases this with h' | h'; · simp [h.1] at h'
                     · exact h')]
      exact bad_poke h xs (by rcases this with h' | h'; · simp [h.1] at h'
                              · exact h')
    · exact ⟨s, rfl, h⟩
  | put c =>
    simp only [Op.run, Dest.put, dest, flush]
    split
    · exact bad_poke h [c] (by simp; omega)
    · have := bad_recycle h
      exact bad_poke this.1 [c] (by simp [this.2])
  | fill n c =>
    simp only [Op.run, Dest.writeFill, dest, flush]
    split
    · split
      · exact bad_poke h _ (by simp; omega)
      · simp only [fillContinuation]
        obtain ⟨s1, e1, i1⟩ := bad_poke h (List.replicate s.space c) (by simp)
        simp only [e1, fillLoop, flush]
        have := (bad_recycle i1).1
        exact ⟨_, if_neg (by simp [this.1]), this⟩
    · exact ⟨s, rfl, h⟩
  | raw n xs =>
    simp only [Op.run, Dest.ensure, dest]
    have := bad_recycle h
    split
    · exact bad_poke this.1 xs (by rw [this.2]; exact Nat.le_trans hop.1 hop.2)
    · exact bad_poke h xs (by have := hop.1; omega)
  | flush => exact ⟨_, rfl, (bad_recycle h).1⟩

theorem good_space {N cap : Nat} {s : Arr α} {t : List α} (h : InvGood N cap s t) : s.space = cap - t.length := by
  obtain ⟨h1, h2, h3, _⟩ := h
  simp [space, h2, h3]

theorem good_poke {N cap : Nat} {s : Arr α} {t : List α} (h : InvGood N cap s t) (xs : List α)
    (hx : xs.length ≤ s.space) : ∃ s', poke s xs = some s' ∧ InvGood N cap s' (t ++ xs) := by
  have hsp := good_space h
  obtain ⟨h1, h2, h3, h4, h5, h6, h7, h8⟩ := h
  obtain ⟨b, e, hl, ht, _⟩ := storeAt_some (buf := s.arr) (i := t.length) (xs := xs) (by omega)
  refine ⟨{ s with arr := b, ptr := .user (t.length + xs.length) }, ?_, h1, ?_, h3, ?_, ?_, ?_, h7, ?_⟩
  · rw [poke, if_pos hx, h2]; simp [e]
  · simp
  · simp; omega
  · simp [hl]; omega
  · simp [hl, h6]
  · simp only [List.length_append]; rw [ht, h8]

theorem good_recycle {N cap : Nat} {s : Arr α} {t : List α} (h : InvGood N cap s t) :
    InvBad (recycle s) s.arr t.length ∧ (recycle s).space = 64 := by
  obtain ⟨h1, h2, h3, h4, h5, h6, h7, h8⟩ := h
  simp only [recycle, h1, if_true]
  exact ⟨⟨rfl, ⟨0, by omega, rfl⟩, rfl, h7, h2, rfl⟩, by simp [space]⟩

/-- the state after text `t` was asked to be written -/
def Inv (N cap : Nat) (plain exact : Prop) (s : Arr α) (t : List α) : Prop :=
  InvGood N cap s t ∨
    ∃ A k, InvBad s A k ∧ A.length = N ∧ k ≤ cap ∧ cap ≤ N ∧ k ≤ t.length ∧ A.take k = t.take k ∧
      (plain → k = cap) ∧ (exact → cap < t.length)

theorem inv_bad_of_good {N cap : Nat} {plain exact : Prop} {s s' : Arr α} {t u : List α}
    (h : InvGood N cap s t) (hb : InvBad s' s.arr t.length)
    (hp : plain → t.length = cap) (he : exact → cap < (t ++ u).length) : Inv N cap plain exact s' (t ++ u) := by
  obtain ⟨h1, h2, h3, h4, h5, h6, h7, h8⟩ := h
  refine Or.inr ⟨s.arr, t.length, hb, h6, h4, by omega, by simp, ?_, hp, he⟩
  rw [h8]; simp

theorem good_doWrite {N cap : Nat} {plain exact : Prop} {s : Arr α} {t : List α} (h : InvGood N cap s t)
    (xs : List α) (hx : s.space < xs.length) :
    ∃ s', doWrite s xs = some s' ∧ Inv N cap plain exact s' (t ++ xs) := by
  have hsp := good_space h
  obtain ⟨s1, e1, i1⟩ := good_poke h (xs.take s.space) (by simp; omega)
  obtain ⟨h1, h2, h3, h4, h5, h6, h7, h8⟩ := h
  obtain ⟨j1, j2, j3, j4, j5, j6, j7, j8⟩ := i1
  refine ⟨{ s1 with it := s1.end_, ptr := .garbage 0, end_ := .garbage 64, good := false }, ?_, ?_⟩
  · simp only [doWrite]; rw [if_neg (by omega), e1]; rfl
  · refine Or.inr ⟨s1.arr, cap, ⟨rfl, ⟨0, by omega, rfl⟩, rfl, j7, j3, rfl⟩, j6, by omega, by omega, ?_, ?_,
      fun _ => rfl, fun _ => ?_⟩
    · simp; omega
    · have hlen : (t ++ xs.take s.space).length = cap := by simp; omega
      rw [hlen] at j8
      rw [j8]
      have e : t ++ xs = (t ++ xs.take s.space) ++ xs.drop s.space := by
        rw [List.append_assoc, List.take_append_drop]
      have e2 : (t ++ xs).take cap = t ++ xs.take s.space := by
        rw [e, List.take_append_of_le_length (Nat.le_of_eq hlen.symm)]
        exact List.take_of_length_le (Nat.le_of_eq hlen)
      exact e2.symm
    · simp; omega

theorem good_op {N cap : Nat} {plain exact : Prop} {s : Arr α} {t : List α} (h : InvGood N cap s t)
    (op : Op α) (hop : op.Ok) (hp : plain → op.Plain) (he : exact → op.Exact) :
    ∃ s', op.run dest s = some s' ∧ Inv N cap plain exact s' (t ++ op.text) := by
  have hsp := good_space h
  have hcap : t.length ≤ cap := h.2.2.2.1
  cases op with
  | write xs =>
    simp only [Op.run, Dest.write, dest, Op.text]
    split
    · split
      · obtain ⟨s', e, i⟩ := good_poke h xs (by assumption)
        exact ⟨s', e, Or.inl i⟩
      · exact good_doWrite h xs (by omega)
    · have : xs = [] := List.length_eq_zero_iff.mp (by omega)
      subst this
      exact ⟨s, rfl, Or.inl (by simpa using h)⟩
  | put c =>
    simp only [Op.run, Dest.put, dest, flush, Op.text]
    split
    · obtain ⟨s', e, i⟩ := good_poke h [c] (by simp; omega)
      exact ⟨s', e, Or.inl i⟩
    · have hr := good_recycle h
      obtain ⟨s', e, i⟩ := bad_poke hr.1 [c] (by simp [hr.2])
      exact ⟨s', e, inv_bad_of_good h i (fun _ => by omega) (fun _ => by simp; omega)⟩
  | fill n c =>
    simp only [Op.run, Dest.writeFill, dest, flush, Op.text]
    split
    · split
      · obtain ⟨s', e, i⟩ := good_poke h (List.replicate n.toNat c) (by simp; omega)
        exact ⟨s', e, Or.inl i⟩
      · simp only [fillContinuation]
        obtain ⟨s1, e1, i1⟩ := good_poke h (List.replicate s.space c) (by simp)
        simp only [e1, fillLoop, flush]
        have hr := (good_recycle i1).1
        refine ⟨_, if_neg (by simp [hr.1]), ?_⟩
        have hlen : (t ++ List.replicate s.space c).length = cap := by simp; omega
        have := inv_bad_of_good (plain := plain) (exact := exact) (u := List.replicate (n.toNat - s.space) c) i1 hr
          (fun _ => hlen) (fun _ => by simp; omega)
        rw [List.append_assoc, List.replicate_append_replicate] at this
        rwa [show s.space + (n.toNat - s.space) = n.toNat by omega] at this
    · have : n.toNat = 0 := by omega
      rw [this]
      exact ⟨s, rfl, Or.inl (by simpa using h)⟩
  | raw n xs =>
    simp only [Op.run, Dest.ensure, dest, Op.text]
    have hr := good_recycle h
    split
    · obtain ⟨s', e, i⟩ := bad_poke hr.1 xs (by rw [hr.2]; exact Nat.le_trans hop.1 hop.2)
      exact ⟨s', e, inv_bad_of_good h i (fun p => absurd (hp p) (by simp [Op.Plain]))
        (fun x => by have := he x; simp only [Op.Exact] at this; simp; omega)⟩
    · obtain ⟨s', e, i⟩ := good_poke h xs (by have := hop.1; omega)
      exact ⟨s', e, Or.inl i⟩
  | flush =>
    refine ⟨_, rfl, ?_⟩
    exact inv_bad_of_good h (good_recycle h).1 (fun p => absurd (hp p) (by simp [Op.Plain]))
      (fun x => absurd (he x) (by simp [Op.Exact]))

theorem inv_op {N cap : Nat} {plain exact : Prop} {s : Arr α} {t : List α} (h : Inv N cap plain exact s t)
    (op : Op α) (hop : op.Ok) (hp : plain → op.Plain) (he : exact → op.Exact)
    (hl : ∀ xs, op = .write xs → s.good = true ∨ xs.length ≤ s.space) :
    ∃ s', op.run dest s = some s' ∧ Inv N cap plain exact s' (t ++ op.text) := by
  rcases h with h | ⟨A, k, h, h1, h2, h3, h4, h5, h6, h7⟩
  · exact good_op h op hop hp he
  · obtain ⟨s', e, i⟩ := bad_op h op hop hl
    refine ⟨s', e, Or.inr ⟨A, k, i, h1, h2, h3, by simp; omega, ?_, h6, fun x => ?_⟩⟩
    · rw [h5, List.take_append_of_le_length h4]
    · have := h7 x; simp; omega

theorem inv_ops {N cap : Nat} {plain exact : Prop} (ops : List (Op α)) :
    ∀ {s : Arr α} {t : List α}, Inv N cap plain exact s t → (∀ op ∈ ops, op.Ok) →
    (plain → ∀ op ∈ ops, op.Plain) → (exact → ∀ op ∈ ops, op.Exact) → SafeLate dest s ops →
    ∃ s', runOps dest s ops = some s' ∧ Inv N cap plain exact s' (t ++ textOf ops) := by
  induction ops with
  | nil => intro s t h _ _ _ _; exact ⟨s, rfl, by simpa [textOf] using h⟩
  | cons op ops ih =>
    intro s t h hok hp he hl
    obtain ⟨s1, e1, i1⟩ := inv_op h op (hok op (by simp)) (fun p => hp p op (by simp))
      (fun p => he p op (by simp)) hl.1
    obtain ⟨s2, e2, i2⟩ := ih i1 (fun o ho => hok o (by simp [ho])) (fun p o ho => hp p o (by simp [ho]))
      (fun p o ho => he p o (by simp [ho])) (hl.2 s1 e1)
    refine ⟨s2, by simp [runOps, e1, e2], ?_⟩
    simpa [textOf, List.append_assoc] using i2

end Arr

namespace Discarder

theorem lawfulAll : LawfulAll (dest (α := α)) (fun s _ => s.garb.length = 64 ∧ s.ptr ≤ 64) where
  poke := by
    rintro s t xs ⟨h1, h2⟩ hx
    simp only [dest] at hx ⊢
    obtain ⟨b, e, hl, ht, _⟩ := storeAt_some (buf := s.garb) (i := s.ptr) (xs := xs) (by omega)
    refine ⟨{ garb := b, ptr := s.ptr + xs.length }, by rw [if_pos hx, e]; rfl,
      ⟨by simp [hl, h1], by simp; omega⟩, by simp only; omega, trivial⟩
  recycle := by
    rintro s t ⟨h1, h2⟩
    simp [dest, h1]
  doWrite := by
    rintro s t xs ⟨h1, h2⟩ _
    exact ⟨_, rfl, ⟨h1, by simp⟩, by simp [dest]⟩
  bad := by
    rintro s t xs h _; exact h

theorem lawful : Lawful (dest (α := α)) (fun s _ => s.garb.length = 64 ∧ s.ptr ≤ 64) := lawfulAll.lawful

end Discarder
end Strf.Dest

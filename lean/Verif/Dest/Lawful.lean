import Verif.Dest.Model
/-
The contract of destinations and its consequences for everything written through them.
-/
namespace Strf.Dest
variable {α σ : Type}

/-- The contract a destination keeps. `Rep s t` reads: in state `s` the destination has been given the text `t`
(and nothing that was accepted is lost; after a failure the rest of the text is dropped). `recycle` is only asked of it
when less than 64 units are left (the destination may then give up). -/
structure Lawful (D : Dest α σ) (Rep : σ → List α → Prop) : Prop where
  poke : ∀ s t xs, Rep s t → xs.length ≤ D.space s →
    ∃ s', D.poke s xs = some s' ∧ Rep s' (t ++ xs) ∧ D.space s' = D.space s - xs.length ∧ D.good s' = D.good s
  recycle : ∀ s t, Rep s t → D.space s < 64 → Rep (D.recycle s) t ∧ 64 ≤ D.space (D.recycle s) ∧
    (D.good (D.recycle s) = true → D.good s = true)
  doWrite : ∀ s t xs, Rep s t → D.space s < xs.length →
    ∃ s', D.doWrite s xs = some s' ∧ Rep s' (t ++ xs) ∧ (D.good s' = true → D.good s = true)
  bad : ∀ s t xs, Rep s t → D.good s = false → Rep s (t ++ xs)

/-- The stronger contract of the destinations that may be recycled (flushed) at any time. -/
structure LawfulAll (D : Dest α σ) (Rep : σ → List α → Prop) : Prop where
  poke : ∀ s t xs, Rep s t → xs.length ≤ D.space s →
    ∃ s', D.poke s xs = some s' ∧ Rep s' (t ++ xs) ∧ D.space s' = D.space s - xs.length ∧ D.good s' = D.good s
  recycle : ∀ s t, Rep s t → Rep (D.recycle s) t ∧ 64 ≤ D.space (D.recycle s) ∧
    (D.good (D.recycle s) = true → D.good s = true)
  doWrite : ∀ s t xs, Rep s t → D.space s < xs.length →
    ∃ s', D.doWrite s xs = some s' ∧ Rep s' (t ++ xs) ∧ (D.good s' = true → D.good s = true)
  bad : ∀ s t xs, Rep s t → D.good s = false → Rep s (t ++ xs)

theorem LawfulAll.lawful {D : Dest α σ} {Rep : σ → List α → Prop} (L : LawfulAll D Rep) : Lawful D Rep :=
  ⟨L.poke, fun s t h _ => L.recycle s t h, L.doWrite, L.bad⟩

/-- How the state is after `n` units were given. A destination that has failed stays so. And, of printers that are careful
(`τ`): if they are given room enough for what they print, they take no more of it than that, and do not ask for more. -/
def After (τ : Bool) (D : Dest α σ) (s s' : σ) (n : Nat) : Prop :=
  (D.good s' = true → D.good s = true) ∧
  (τ = true → D.good s = true → n ≤ D.space s → D.space s' = D.space s - n ∧ D.good s' = true)

/-- `p` writes the text `txt`: from any state it ends in a state that has been given `txt` in addition, without
undefined behaviour. -/
def Prints (τ : Bool) (D : Dest α σ) (Rep : σ → List α → Prop) (p : σ → Option σ) (txt : List α) : Prop :=
  ∀ s t, Rep s t → ∃ s', p s = some s' ∧ Rep s' (t ++ txt) ∧ After τ D s s' txt.length

variable {D : Dest α σ} {Rep : σ → List α → Prop} {τ : Bool}

theorem After.refl (s : σ) : After τ D s s 0 := ⟨id, fun _ g _ => ⟨rfl, g⟩⟩

theorem After.trans {s s1 s2 : σ} {a b n : Nat} (h1 : After τ D s s1 a) (h2 : After τ D s1 s2 b) (hn : a + b = n) :
    After τ D s s2 n := by
  refine ⟨fun g => h1.1 (h2.1 g), fun ht g hs => ?_⟩
  obtain ⟨e1, g1⟩ := h1.2 ht g (by omega)
  obtain ⟨e2, g2⟩ := h2.2 ht g1 (by omega)
  exact ⟨by omega, g2⟩

theorem After.cast {s s1 : σ} {a n : Nat} (h : After τ D s s1 a) (hn : a = n) : After τ D s s1 n := hn ▸ h

/-- there was not room enough -/
theorem After.over {s s' : σ} {n : Nat} (h : D.good s' = true → D.good s = true) (hn : D.space s < n) : After τ D s s' n :=
  ⟨h, fun _ _ hs => by omega⟩

/-- it had failed -/
theorem After.of_bad {s s' : σ} {n : Nat} (h : D.good s = false) (h' : D.good s' = true → D.good s = true) : After τ D s s' n :=
  ⟨h', fun _ g _ => by rw [h] at g; cases g⟩

/-- it failed before the end -/
theorem After.more {s s' : σ} {a n : Nat} (h : After τ D s s' a) (hb : D.good s' = false) (hn : a ≤ n) : After τ D s s' n :=
  ⟨h.1, fun ht k hs => by have := (h.2 ht k (by omega)).2; rw [hb] at this; cases this⟩

theorem After.poke {s s' : σ} {n : Nat} (h : D.space s' = D.space s - n) (g : D.good s' = D.good s) : After τ D s s' n :=
  ⟨fun k => g ▸ k, fun _ k _ => ⟨h, g.trans k⟩⟩

theorem Prints.any {p : σ → Option σ} {x : List α} (h : Prints true D Rep p x) : Prints τ D Rep p x := by
  intro s t hr
  obtain ⟨s', e, r, g, w⟩ := h s t hr
  exact ⟨s', e, r, g, fun _ => w rfl⟩

theorem Prints.weaken {p : σ → Option σ} {x : List α} (h : Prints τ D Rep p x) : Prints false D Rep p x := by
  intro s t hr
  obtain ⟨s', e, r, g, _⟩ := h s t hr
  exact ⟨s', e, r, g, fun h => by cases h⟩

theorem Prints.nil : Prints τ D Rep (fun s => some s) [] := by
  intro s t h; exact ⟨s, rfl, by simpa using h, .refl s⟩

theorem Prints.comp {p q : σ → Option σ} {x y : List α} (hp : Prints τ D Rep p x) (hq : Prints τ D Rep q y) :
    Prints τ D Rep (fun s => (p s).bind q) (x ++ y) := by
  intro s t h
  obtain ⟨s1, e1, r1, g1⟩ := hp s t h
  obtain ⟨s2, e2, r2, g2⟩ := hq s1 _ r1
  exact ⟨s2, by simp [e1, e2], by simpa using r2, g1.trans g2 (by simp)⟩

theorem Lawful.ensure (L : Lawful D Rep) {s : σ} {t : List α} (h : Rep s t) (n : Nat) (hn : n ≤ 64) :
    Rep (ensure D s n) t ∧ n ≤ D.space (ensure D s n) ∧ (D.good (ensure D s n) = true → D.good s = true) := by
  unfold Dest.ensure
  split
  · have := L.recycle s t h (by omega)
    exact ⟨this.1, by omega, this.2.2⟩
  · exact ⟨h, by omega, id⟩

/-- ensure_space does not matter when it asks for no more than what is printed -/
theorem After.ensure {s s' : σ} {n m : Nat} (g : D.good (Dest.ensure D s n) = true → D.good s = true)
    (h : After τ D (Dest.ensure D s n) s' m) (hn : τ = true → n ≤ m) : After τ D s s' m := by
  refine ⟨fun k => g (h.1 k), fun ht k hs => ?_⟩
  have := hn ht
  have hens : Dest.ensure D s n = s := by unfold Dest.ensure; rw [if_neg (by omega)]
  rw [hens] at h
  exact h.2 ht k hs

/-- ensure_space(n), and no more than `n` units: the rest that is printed afterwards makes at least `n` units in all. -/
theorem Lawful.prints_raw_then (L : Lawful D Rep) (n : Nat) (xs : List α) (hx : xs.length ≤ n) (hn : n ≤ 64) {q : σ → Option σ}
    {y : List α} (hq : Prints τ D Rep q y) (hy : τ = true → n ≤ xs.length + y.length) :
    Prints τ D Rep (fun s => (D.poke (Dest.ensure D s n) xs).bind q) (xs ++ y) := by
  intro s t h
  obtain ⟨r, sp, g⟩ := L.ensure h n hn
  obtain ⟨s1, e, r', z, g'⟩ := L.poke _ t xs r (by omega)
  obtain ⟨s2, e2, r2, g2⟩ := hq s1 _ r'
  refine ⟨s2, by simp [e, e2], by simpa using r2, fun k => g (g' ▸ g2.1 k), fun ht k hs => ?_⟩
  have := hy ht
  rw [List.length_append] at hs ⊢
  have hens : Dest.ensure D s n = s := by unfold Dest.ensure; rw [if_neg (by omega)]
  rw [hens] at z g'
  obtain ⟨w1, w2⟩ := g2.2 ht (g'.trans k) (by omega)
  exact ⟨by omega, w2⟩

theorem Lawful.prints_raw (L : Lawful D Rep) (n : Nat) (xs : List α) (hx : xs.length = n) (hn : n ≤ 64) :
    Prints τ D Rep (fun s => D.poke (Dest.ensure D s n) xs) xs := by
  intro s t h
  obtain ⟨s', e, r, g⟩ := L.prints_raw_then (τ := τ) n xs (by omega) hn Prints.nil (by simp; omega) s t h
  exact ⟨s', by simpa using e, by simpa using r, by simpa using g⟩

theorem Lawful.prints_raw_loose (L : Lawful D Rep) (n : Nat) (xs : List α) (hx : xs.length ≤ n) (hn : n ≤ 64) :
    Prints false D Rep (fun s => D.poke (Dest.ensure D s n) xs) xs := by
  intro s t h
  obtain ⟨s', e, r, g⟩ := L.prints_raw_then (τ := false) n xs hx hn Prints.nil (by simp) s t h
  exact ⟨s', by simpa using e, by simpa using r, by simpa using g⟩

theorem Lawful.prints_write (L : Lawful D Rep) (xs : List α) : Prints τ D Rep (fun s => Dest.write D s xs) xs := by
  intro s t h
  unfold Dest.write
  dsimp only
  split
  · split
    · obtain ⟨s', e, r', z, g'⟩ := L.poke _ t xs h (by omega)
      exact ⟨s', e, r', .poke z g'⟩
    · obtain ⟨s', e, r', g'⟩ := L.doWrite s t xs h (by omega)
      exact ⟨s', e, r', .over g' (by omega)⟩
  · have : xs = [] := List.length_eq_zero_iff.mp (by omega)
    subst this
    exact ⟨s, rfl, by simpa using h, .refl s⟩

theorem Lawful.prints_put (L : Lawful D Rep) (c : α) : Prints τ D Rep (fun s => Dest.put D s c) [c] := by
  intro s t h
  unfold Dest.put
  dsimp only
  split
  · obtain ⟨s', e, r', z, g'⟩ := L.poke _ t [c] h (by simp; omega)
    exact ⟨s', e, r', .poke z g'⟩
  · obtain ⟨r, sp, g⟩ := L.recycle s t h (by omega)
    obtain ⟨s', e, r', _, g'⟩ := L.poke (D.recycle s) t [c] r (by simp; omega)
    exact ⟨s', e, r', .over (fun k => g (g' ▸ k)) (by simp; omega)⟩

theorem LawfulAll.prints_flush (L : LawfulAll D Rep) : Prints false D Rep (fun s => some (Dest.flush D s)) [] := by
  intro s t h
  obtain ⟨r, _, g⟩ := L.recycle s t h
  exact ⟨_, rfl, by rw [List.append_nil]; exact r, g, fun h => by cases h⟩

/-- Laws for a destination that does not override `do_write`: its `doWrite` is not used in the statement. -/
structure LawfulCore (D : Dest α σ) (Rep : σ → List α → Prop) : Prop where
  poke : ∀ s t xs, Rep s t → xs.length ≤ D.space s →
    ∃ s', D.poke s xs = some s' ∧ Rep s' (t ++ xs) ∧ D.space s' = D.space s - xs.length ∧ D.good s' = D.good s
  recycle : ∀ s t, Rep s t → D.space s < 64 → Rep (D.recycle s) t ∧ 64 ≤ D.space (D.recycle s) ∧
    (D.good (D.recycle s) = true → D.good s = true)
  bad : ∀ s t xs, Rep s t → D.good s = false → Rep s (t ++ xs)

theorem LawfulAll.core (L : LawfulAll D Rep) : LawfulCore D Rep := ⟨L.poke, fun s t h _ => L.recycle s t h, L.bad⟩

theorem LawfulCore.baseDoWrite (L : LawfulCore D Rep) (fuel : Nat) :
    ∀ (s : σ) (t xs : List α), Rep s t → (xs.length < fuel ∨ (0 < D.space s ∧ xs.length ≤ fuel)) → 0 < fuel →
    ∃ s', Dest.baseDoWrite D fuel s xs = some s' ∧ Rep s' (t ++ xs) ∧ (D.good s' = true → D.good s = true) := by
  induction fuel with
  | zero => intro s t xs _ _ hf; omega
  | succ fuel ih =>
    intro s t xs h hf _
    unfold Dest.baseDoWrite
    dsimp only
    obtain ⟨sub, hsub⟩ : ∃ sub, sub = if xs.length ≤ D.space s then xs.length else D.space s := ⟨_, rfl⟩
    rw [← hsub]
    have hle : (xs.take sub).length ≤ D.space s := by
      rw [hsub]; split <;> simp <;> omega
    have hcat : t ++ xs.take sub ++ xs.drop sub = t ++ xs := by
      rw [List.append_assoc, List.take_append_drop]
    obtain ⟨s1, e1, r1, p1, g1⟩ := L.poke s t _ h hle
    simp only [e1]
    by_cases hz : (xs.drop sub).length = 0
    · rw [if_pos hz]
      rw [List.length_eq_zero_iff.mp hz, List.append_nil] at hcat
      exact ⟨s1, rfl, hcat ▸ r1, fun k => g1 ▸ k⟩
    · rw [if_neg hz]
      have hfull : D.space s1 < 64 := by
        rw [p1, List.length_take]
        rw [List.length_drop] at hz
        split at hsub <;> omega
      obtain ⟨r2, sp2, g2⟩ := L.recycle s1 _ r1 hfull
      have hd : (xs.drop sub).length ≤ fuel := by
        rw [List.length_drop] at *
        split at hsub <;> omega
      by_cases hg : D.good (D.recycle s1) = true
      · simp only [Dest.flush, hg, if_true]
        obtain ⟨s', e', r', g'⟩ := ih (D.recycle s1) _ (xs.drop sub) r2 (Or.inr ⟨by omega, hd⟩) (by omega)
        exact ⟨s', e', hcat ▸ r', fun k => g1 ▸ g2 (g' k)⟩
      · simp only [Dest.flush, hg]
        exact ⟨_, rfl, hcat ▸ L.bad _ _ (xs.drop sub) r2 (by simpa using hg), fun k => absurd k hg⟩

theorem Lawful.fillLoop (L : Lawful D Rep) (c : α) (fuel : Nat) :
    ∀ (s : σ) (t : List α) (n : Nat), Rep s t → 64 ≤ D.space s → n < fuel →
    ∃ s', Dest.fillLoop D c fuel s n = some s' ∧ Rep s' (t ++ List.replicate n c) ∧
      (D.good s' = true → D.good s = true) := by
  induction fuel with
  | zero => intro s t n _ _ h; omega
  | succ fuel ih =>
    intro s t n h hsp hf
    unfold Dest.fillLoop
    split
    · rename_i hg
      simp only
      split
      · obtain ⟨s', e, r', _, g'⟩ := L.poke s t (List.replicate n c) h (by simpa)
        exact ⟨s', e, r', fun k => g' ▸ k⟩
      · obtain ⟨s1, e1, r1, sz1, g1⟩ := L.poke s t (List.replicate (D.space s) c) h (by simp)
        simp only [e1]
        obtain ⟨r2, sp2, g2⟩ := L.recycle s1 _ r1 (by simp at sz1; omega)
        obtain ⟨s', e', r', g'⟩ := ih (D.recycle s1) _ (n - D.space s) r2 sp2 (by omega)
        refine ⟨s', e', ?_, fun k => g1 ▸ g2 (g' k)⟩
        rw [List.append_assoc, List.replicate_append_replicate] at r'
        rwa [show D.space s + (n - D.space s) = n by omega] at r'
    · rename_i hg
      exact ⟨s, rfl, L.bad _ _ _ h (by simpa using hg), id⟩

theorem Lawful.prints_fill (L : Lawful D Rep) (n : Int) (c : α) :
    Prints τ D Rep (fun s => Dest.writeFill D s n c) (List.replicate n.toNat c) := by
  intro s t h
  unfold Dest.writeFill
  dsimp only
  split
  · split
    · obtain ⟨s', e, r', z, g'⟩ := L.poke s t (List.replicate n.toNat c) h (by simp; omega)
      exact ⟨s', e, r', .poke z g'⟩
    · unfold Dest.fillContinuation
      obtain ⟨s1, e1, r1, sz1, g1⟩ := L.poke s t (List.replicate (D.space s) c) h (by simp)
      simp only [e1]
      obtain ⟨r2, sp2, g2⟩ := L.recycle s1 _ r1 (by simp at sz1; omega)
      obtain ⟨s', e', r', g'⟩ := L.fillLoop c (n.toNat + 1) (D.recycle s1) _ (n.toNat - D.space s) r2 sp2
        (by omega)
      refine ⟨s', e', ?_, .over (fun k => g1 ▸ g2 (g' k)) (by simp; omega)⟩
      rw [List.append_assoc, List.replicate_append_replicate] at r'
      rwa [show D.space s + (n.toNat - D.space s) = n.toNat by omega] at r'
  · have : n.toNat = 0 := by omega
    rw [this]
    exact ⟨s, rfl, by simpa using h, .refl s⟩

theorem Lawful.intercharLoop (L : Lawful D Rep) {β : Type} (f : β → α) (fuel : Nat) :
    ∀ (s : σ) (t : List α) (xs : List β), Rep s t → (xs.length < fuel ∨ (0 < D.space s ∧ xs.length ≤ fuel)) →
    0 < fuel →
    ∃ s', Dest.intercharLoop D f fuel s xs = some s' ∧ Rep s' (t ++ xs.map f) ∧
      (D.good s' = true → D.good s = true) := by
  induction fuel with
  | zero => intro s t n _ _ h; omega
  | succ fuel ih =>
    intro s t xs h hf _
    unfold Dest.intercharLoop
    simp only
    split
    · obtain ⟨s', e, r', _, g'⟩ := L.poke s t (xs.map f) h (by simpa)
      exact ⟨s', e, r', fun k => g' ▸ k⟩
    · rename_i hlt
      obtain ⟨s1, e1, r1, sz1, g1⟩ := L.poke s t ((xs.take (D.space s)).map f) h (by simp; omega)
      simp only [e1]
      obtain ⟨r2, sp2, g2⟩ := L.recycle s1 _ r1 (by simp at sz1; omega)
      have hcat : t ++ (xs.take (D.space s)).map f ++ (xs.drop (D.space s)).map f = t ++ xs.map f := by
        rw [List.append_assoc, ← List.map_append, List.take_append_drop]
      by_cases hg : D.good (D.recycle s1) = true
      · simp only [Dest.flush, hg, if_true]
        obtain ⟨s', e', r', g'⟩ := ih (D.recycle s1) _ (xs.drop (D.space s)) r2 (by
            right; simp; omega) (by rcases hf with h | h <;> omega)
        exact ⟨s', e', hcat ▸ r', fun k => g1 ▸ g2 (g' k)⟩
      · simp only [Dest.flush, hg]
        exact ⟨_, rfl, hcat ▸ L.bad _ _ ((xs.drop (D.space s)).map f) r2 (by simpa using hg), fun k => absurd k hg⟩

theorem Lawful.prints_interchar (L : Lawful D Rep) {β : Type} (f : β → α) (xs : List β) :
    Prints τ D Rep (fun s => Dest.intercharCopy D f s xs) (xs.map f) := by
  intro s t h
  unfold Dest.intercharCopy
  dsimp only
  split
  · by_cases hle : xs.length ≤ D.space s
    · unfold Dest.intercharLoop
      simp only
      rw [if_pos hle]
      obtain ⟨s', e, r', z, g'⟩ := L.poke s t (xs.map f) h (by simpa)
      exact ⟨s', e, r', .poke z g'⟩
    · obtain ⟨s', e, r', g'⟩ := L.intercharLoop f (xs.length + 1) s t xs h (by omega) (by omega)
      exact ⟨s', e, r', .over g' (by simp; omega)⟩
  · have : xs = [] := List.length_eq_zero_iff.mp (by omega)
    subst this
    exact ⟨s, rfl, by simpa using h, .refl s⟩

theorem LawfulAll.prints_op (L : LawfulAll D Rep) (op : Op α) (hop : op.Ok) :
    Prints false D Rep (fun s => op.run D s) op.text := by
  cases op with
  | write xs => exact L.lawful.prints_write xs
  | put c => exact L.lawful.prints_put c
  | fill n c => exact L.lawful.prints_fill n c
  | raw n xs => exact L.lawful.prints_raw_loose n xs hop.1 hop.2
  | flush => exact L.prints_flush

theorem LawfulAll.prints_ops (L : LawfulAll D Rep) (ops : List (Op α)) (hops : ∀ op ∈ ops, op.Ok) :
    Prints false D Rep (fun s => runOps D s ops) (textOf ops) := by
  induction ops with
  | nil => intro s t h; exact ⟨s, rfl, by simpa [textOf] using h, .refl s⟩
  | cons op ops ih =>
    intro s t h
    obtain ⟨s1, e1, r1, g1⟩ := L.prints_op op (hops op (by simp)) s t h
    obtain ⟨s2, e2, r2, g2⟩ := ih (fun o ho => hops o (by simp [ho])) s1 _ r1
    refine ⟨s2, ?_, ?_, g1.trans g2 (by simp [textOf])⟩
    · simp only at e1; simp [runOps, e1, e2]
    · simpa [textOf, List.append_assoc] using r2

end Strf.Dest

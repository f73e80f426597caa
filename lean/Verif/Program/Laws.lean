import Verif.Program.CallProps
/-!
# C83: laws of calls

Calls that are written differently print the same: how the arguments are grouped (`join`, `range`, `with`) does not matter; a call prints one argument after the
other, each as it is printed alone; a separated range, a tr-string and an aligned join put those texts together; two calls on the same destination are one.
The laws hold of calls that mean something (`Call.Means`, C73), on every destination that keeps the contract of destinations (C09).
-/
namespace Strf.Program
open Strf.Format
open Strf.Print (Item Meaning AllMean total printPlain printAll lineText)
open Strf.Dest (Dest Lawful Prints Maker)
open Strf.Facets (writtenAll)
open Strf.Width (wmax)

variable {T : CharT} {B : Int} {K : CharT → CharsetArg}

/-- The call prints `text`: it compiles, and on every destination writes that text to whatever was written before, without undefined behaviour (`Prints`, C09). -/
def Writes (T : CharT) (c : Call) (text : List Nat) : Prop :=
  ∀ (σ : Type) (D : Dest Nat σ) (Rep : σ → List Nat → Prop), Lawful D Rep → ∀ sg : CharT → Bool,
    ∃ its, c.items D T sg = some its ∧ Prints true D Rep (printPlain D c.eol its) text

/-- in particular, `to_string` returns it -/
theorem Writes.to_string {c : Call} {text : List Nat} (h : Writes T c text) (sg : CharT → Bool) (junk : List Nat) (hj : junk.length = 64) :
    ∃ its s, c.items Maker.dest T sg = some its ∧ printPlain Maker.dest c.eol its (Maker.init junk) = some s ∧
      (Maker.finishE true s).2 = some text := by
  obtain ⟨its, hi, hp⟩ := h _ Maker.dest (fun s t => Maker.Rep s t) Maker.lawful sg
  obtain ⟨s, e, r, _⟩ := hp (Maker.init junk) [] (Maker.rep_init hj)
  exact ⟨its, s, hi, e, Maker.finish_of_rep (by simpa using r)⟩

/-- C83: a call prints one text. -/
theorem writes_unique {c : Call} {x y : List Nat} (h : Writes T c x) (h' : Writes T c y) : x = y := by
  obtain ⟨its, s, hi, e, r⟩ := h.to_string (fun _ => false) (List.replicate 64 0) (by simp)
  obtain ⟨its', s', hi', e', r'⟩ := h'.to_string (fun _ => false) (List.replicate 64 0) (by simp)
  rw [hi] at hi'; cases hi'
  rw [e] at e'; cases e'
  rw [r] at r'
  exact Option.some.inj r'

theorem means_writes {c : Call} {ms : List Meaning} (h : c.Means T B ms) : Writes T c (c.text ms) := by
  intro σ D Rep L sg
  obtain ⟨its, hi, hm⟩ := call_exact_partial (sg := sg) L h
  exact ⟨its, hi, Print.printPlain_prints L c.eol hm⟩

/-! ## One argument after the other -/

theorem total_append (a b : List Meaning) : total (a ++ b) = ⟨(total a).text ++ (total b).text, (total a).width + (total b).width,
    (total a).room + (total b).room, (total a).cost + (total b).cost⟩ := by
  induction a with
  | nil => simp [total]
  | cons m a ih => simp [total, ih, Int.add_assoc]

theorem allMean_append {σ : Type} {D : Dest Nat σ} {Rep : σ → List Nat → Prop} {as bs : List (Item σ)} {ms ns : List Meaning}
    (h : AllMean τ D Rep B as ms) (h' : AllMean τ D Rep B bs ns) : AllMean τ D Rep B (as ++ bs) (ms ++ ns) := by
  induction h with
  | nil => exact h'
  | cons h _ ih => exact .cons h ih

theorem items_append {σ : Type} (D : Dest Nat σ) (sg : CharT → Bool) (fp : Pack) (a b : List Arg) :
    items D T sg fp (a ++ b) = (items D T sg fp a).bind fun x => (items D T sg fp b).map fun y => x ++ y := by
  induction a with
  | nil => simp [items]
  | cons c a ih =>
    simp only [List.cons_append, items, ih]
    cases c.item D T sg fp with
    | none => rfl
    | some it =>
      cases items D T sg fp a with
      | none => rfl
      | some x => cases items D T sg fp b <;> simp

/-- C83: A call prints its arguments one after the other: `f(a..., b...)` prints what `f(a...)` and `f(b...)` print. -/
theorem concat_law {ws : List Pack} {fs : Pack} {a b : List Arg} {eol : Bool} {B' : Int} {ms ns : List Meaning}
    (ha : (Call.mk ws fs a false).Means T B ms) (hb : (Call.mk ws fs b eol).Means T B' ns) :
    ∃ x y, Writes T ⟨ws, fs, a, false⟩ x ∧ Writes T ⟨ws, fs, b, eol⟩ y ∧ Writes T ⟨ws, fs, a ++ b, eol⟩ (x ++ y) := by
  refine ⟨_, _, means_writes ha, means_writes hb, ?_⟩
  intro σ D Rep L sg
  obtain ⟨i1, e1, m1⟩ := call_exact_partial (τ := true) (sg := sg) L ha
  obtain ⟨i2, e2, m2⟩ := call_exact_partial (τ := true) (sg := sg) L hb
  have m := allMean_append (τ := true) (m1.mono (τ := true) (Int.min_le_left B B')) (m2.mono (τ := true) (Int.min_le_right B B'))
  refine ⟨i1 ++ i2, ?_, ?_⟩
  · unfold Call.items at e1 e2 ⊢
    dsimp only at e1 e2 ⊢
    rw [items_append, e1, e2]; rfl
  · have := Print.printPlain_prints L eol m
    rw [total_append] at this
    simpa [Call.text, lineText, List.append_assoc] using this

/-- C83: `.line` adds the end of line. -/
theorem line_law {ws : List Pack} {fs : Pack} {a : List Arg} {ms : List Meaning} (ha : (Call.mk ws fs a false).Means T B ms) :
    ∃ x, Writes T ⟨ws, fs, a, false⟩ x ∧ Writes T ⟨ws, fs, a, true⟩ (x ++ [0x0A]) := by
  refine ⟨_, means_writes ha, ?_⟩
  have := means_writes (c := ⟨ws, fs, a, true⟩) (T := T) (B := B) (ms := ms) ha
  simpa [Call.text] using this

/-- C83: Two calls on the same destination write what one call with the arguments of both writes, whatever was written before: with the same facets, -/
theorem two_calls_law {ws : List Pack} {fs : Pack} {a b : List Arg} {eol : Bool} {B' : Int} {ms ns : List Meaning}
    (ha : (Call.mk ws fs a false).Means T B ms) (hb : (Call.mk ws fs b eol).Means T B' ns)
    {σ : Type} {D : Dest Nat σ} {Rep : σ → List Nat → Prop} (L : Lawful D Rep) (sg : CharT → Bool) {s : σ} {t : List Nat} (hs : Rep s t) :
    ∃ i1 i2 i3 s1 s2 s3 x, (Call.mk ws fs a false).items D T sg = some i1 ∧ (Call.mk ws fs b eol).items D T sg = some i2 ∧
      (Call.mk ws fs (a ++ b) eol).items D T sg = some i3 ∧
      printPlain D false i1 s = some s1 ∧ printPlain D eol i2 s1 = some s2 ∧ printPlain D eol i3 s = some s3 ∧
      Rep s2 (t ++ x) ∧ Rep s3 (t ++ x) := by
  obtain ⟨x, y, w1, w2, w3⟩ := concat_law ha hb
  obtain ⟨i1, e1, p1⟩ := w1 σ D Rep L sg
  obtain ⟨i2, e2, p2⟩ := w2 σ D Rep L sg
  obtain ⟨i3, e3, p3⟩ := w3 σ D Rep L sg
  obtain ⟨s1, f1, r1, _⟩ := p1 s t hs
  obtain ⟨s2, f2, r2, _⟩ := p2 s1 _ r1
  obtain ⟨s3, f3, r3, _⟩ := p3 s t hs
  exact ⟨i1, i2, i3, s1, s2, s3, x ++ y, e1, e2, e3, f1, f2, f3, by rw [← List.append_assoc]; exact r2, r3⟩

/-! ## Grouping -/

mutual
/-- The arguments, each with the facets it is printed with: what is left of `join`, `range` and `with` when only the arguments are looked at. -/
def leaves (fp : Pack) : Arg → List (Pack × Arg)
  | .join args => leavesAll fp args
  | .range args => leavesAll fp args
  | .inner fs args => leavesAll (fp ++ fs) args
  | a => [(fp, a)]
def leavesAll (fp : Pack) : List Arg → List (Pack × Arg)
  | [] => []
  | a :: as => leaves fp a ++ leavesAll fp as
end

mutual
/-- the facets of the `with` among them are well typed, and accepted -/
def GroupsOk : Arg → Prop
  | .join args => AllGroupsOk args
  | .range args => AllGroupsOk args
  | .inner fs args => AllTyped fs ∧ allConstrainable fs = true ∧ AllGroupsOk args
  | _ => True
def AllGroupsOk : List Arg → Prop
  | [] => True
  | a :: as => GroupsOk a ∧ AllGroupsOk as
end

/-- what the leaves mean -/
inductive LeavesDenote (T : CharT) (K : CharT → CharsetArg) (B : Int) : List (Pack × Arg) → List Meaning → Prop
  | nil : LeavesDenote T K B [] []
  | cons {fp a l m ms} : Denotes T K fp B a m → LeavesDenote T K B l ms → LeavesDenote T K B ((fp, a) :: l) (m :: ms)

theorem LeavesDenote.append {l l' : List (Pack × Arg)} {ms ms' : List Meaning} (h : LeavesDenote T K B l ms) (h' : LeavesDenote T K B l' ms') :
    LeavesDenote T K B (l ++ l') (ms ++ ms') := by
  induction h with
  | nil => exact h'
  | cons h _ ih => exact .cons h ih

theorem LeavesDenote.split {l l' : List (Pack × Arg)} {ms : List Meaning} (h : LeavesDenote T K B (l ++ l') ms) :
    ∃ ms1 ms2, ms = ms1 ++ ms2 ∧ LeavesDenote T K B l ms1 ∧ LeavesDenote T K B l' ms2 := by
  induction l generalizing ms with
  | nil => exact ⟨[], ms, rfl, .nil, h⟩
  | cons x l ih =>
    cases h with
    | cons h hs =>
      obtain ⟨a, b, rfl, ha, hb⟩ := ih hs
      exact ⟨_ :: a, b, rfl, .cons h ha, hb⟩

mutual
theorem leaves_of : {fp : Pack} → {a : Arg} → {m : Meaning} → Denotes T K fp B a m →
    ∃ ms, LeavesDenote T K B (leaves fp a) ms ∧ total ms = m
  | fp, .join args, _, .join h => by
    obtain ⟨ms, h1, h2⟩ := leavesAll_of h; exact ⟨ms, by unfold leaves; exact h1, h2⟩
  | fp, .range args, _, .range h => by
    obtain ⟨ms, h1, h2⟩ := leavesAll_of h; exact ⟨ms, by unfold leaves; exact h1, h2⟩
  | fp, .inner fs args, _, .inner _ _ h => by
    obtain ⟨ms, h1, h2⟩ := leavesAll_of h; exact ⟨ms, by unfold leaves; exact h1, h2⟩
  | fp, .int .., m, h => ⟨[m], .cons h .nil, by simp [total]⟩
  | fp, .float .., m, h => ⟨[m], .cons h .nil, by simp [total]⟩
  | fp, .str .., m, h => ⟨[m], .cons h .nil, by simp [total]⟩
  | fp, .rawChr .., m, h => ⟨[m], .cons h .nil, by simp [total]⟩
  | fp, .chr .., m, h => ⟨[m], .cons h .nil, by simp [total]⟩
  | fp, .bool .., m, h => ⟨[m], .cons h .nil, by simp [total]⟩
  | fp, .ptr .., m, h => ⟨[m], .cons h .nil, by simp [total]⟩
  | fp, .alignedJoin .., m, h => ⟨[m], .cons h .nil, by simp [total]⟩
  | fp, .separatedRange .., m, h => ⟨[m], .cons h .nil, by simp [total]⟩
  | fp, .tr .., m, h => ⟨[m], .cons h .nil, by simp [total]⟩
theorem leavesAll_of : {fp : Pack} → {as : List Arg} → {ms : List Meaning} → DenoteAll T K fp B as ms →
    ∃ ns, LeavesDenote T K B (leavesAll fp as) ns ∧ total ns = total ms
  | _, [], _, .nil => ⟨[], .nil, rfl⟩
  | _, _ :: _, _, .cons h hs => by
    obtain ⟨a, a1, a2⟩ := leaves_of h
    obtain ⟨b, b1, b2⟩ := leavesAll_of hs
    exact ⟨a ++ b, by unfold leavesAll; exact a1.append b1, by rw [total_append, a2, b2]; rfl⟩
end

mutual
theorem of_leaves : {fp : Pack} → {a : Arg} → {ms : List Meaning} → GroupsOk a → LeavesDenote T K B (leaves fp a) ms →
    Denotes T K fp B a (total ms)
  | fp, .join args, ms, g, h => by
    unfold leaves at h; unfold GroupsOk at g
    obtain ⟨ns, h1, h2⟩ := of_leavesAll g h; rw [← h2]; exact .join h1
  | fp, .range args, ms, g, h => by
    unfold leaves at h; unfold GroupsOk at g
    obtain ⟨ns, h1, h2⟩ := of_leavesAll g h; rw [← h2]; exact .range h1
  | fp, .inner fs args, ms, g, h => by
    unfold leaves at h; unfold GroupsOk at g
    obtain ⟨ns, h1, h2⟩ := of_leavesAll g.2.2 h; rw [← h2]; exact .inner g.1 g.2.1 h1
  | fp, .int .., _, _, .cons h .nil => by simpa [total] using h
  | fp, .float .., _, _, .cons h .nil => by simpa [total] using h
  | fp, .str .., _, _, .cons h .nil => by simpa [total] using h
  | fp, .rawChr .., _, _, .cons h .nil => by simpa [total] using h
  | fp, .chr .., _, _, .cons h .nil => by simpa [total] using h
  | fp, .bool .., _, _, .cons h .nil => by simpa [total] using h
  | fp, .ptr .., _, _, .cons h .nil => by simpa [total] using h
  | fp, .alignedJoin .., _, _, .cons h .nil => by simpa [total] using h
  | fp, .separatedRange .., _, _, .cons h .nil => by simpa [total] using h
  | fp, .tr .., _, _, .cons h .nil => by simpa [total] using h
theorem of_leavesAll : {fp : Pack} → {as : List Arg} → {ms : List Meaning} → AllGroupsOk as → LeavesDenote T K B (leavesAll fp as) ms →
    ∃ ns, DenoteAll T K fp B as ns ∧ total ns = total ms
  | _, [], _, _, .nil => ⟨[], .nil, rfl⟩
  | fp, a :: as, ms, g, h => by
    unfold leavesAll at h; unfold AllGroupsOk at g
    obtain ⟨a, b, rfl, h1, h2⟩ := h.split
    obtain ⟨ns, n1, n2⟩ := of_leavesAll g.2 h2
    exact ⟨total a :: ns, .cons (of_leaves g.1 h1) n1, by rw [total_append]; simp only [total, n2]⟩
end

mutual
theorem leaf_pack : {fp : Pack} → (a : Arg) → GroupsOk a → ∀ x ∈ leaves fp a, ∃ fs, x.1 = fp ++ fs ∧ AllTyped fs ∧ allConstrainable fs = true
  | fp, .join args, g, x, hx => by unfold leaves at hx; unfold GroupsOk at g; exact leafAll_pack args g x hx
  | fp, .range args, g, x, hx => by unfold leaves at hx; unfold GroupsOk at g; exact leafAll_pack args g x hx
  | fp, .inner fs args, g, x, hx => by
    unfold leaves at hx; unfold GroupsOk at g
    obtain ⟨gs, e, h1, h2⟩ := leafAll_pack args g.2.2 x hx
    refine ⟨fs ++ gs, by rw [e, List.append_assoc], ?_, ?_⟩
    · have := g.1
      clear hx e g
      induction fs with
      | nil => exact h1
      | cons f fs ih => simp only [List.cons_append, AllTyped] at this ⊢; exact ⟨this.1, ih this.2⟩
    · have := g.2.1
      clear hx e g
      induction fs with
      | nil => exact h2
      | cons f fs ih => simp only [List.cons_append, allConstrainable, Bool.and_eq_true] at this ⊢; exact ⟨this.1, ih this.2⟩
  | fp, .int .., _, x, hx => ⟨[], by simp [leaves] at hx; simp [hx], trivial, rfl⟩
  | fp, .float .., _, x, hx => ⟨[], by simp [leaves] at hx; simp [hx], trivial, rfl⟩
  | fp, .str .., _, x, hx => ⟨[], by simp [leaves] at hx; simp [hx], trivial, rfl⟩
  | fp, .rawChr .., _, x, hx => ⟨[], by simp [leaves] at hx; simp [hx], trivial, rfl⟩
  | fp, .chr .., _, x, hx => ⟨[], by simp [leaves] at hx; simp [hx], trivial, rfl⟩
  | fp, .bool .., _, x, hx => ⟨[], by simp [leaves] at hx; simp [hx], trivial, rfl⟩
  | fp, .ptr .., _, x, hx => ⟨[], by simp [leaves] at hx; simp [hx], trivial, rfl⟩
  | fp, .alignedJoin .., _, x, hx => ⟨[], by simp [leaves] at hx; simp [hx], trivial, rfl⟩
  | fp, .separatedRange .., _, x, hx => ⟨[], by simp [leaves] at hx; simp [hx], trivial, rfl⟩
  | fp, .tr .., _, x, hx => ⟨[], by simp [leaves] at hx; simp [hx], trivial, rfl⟩
theorem leafAll_pack : {fp : Pack} → (as : List Arg) → AllGroupsOk as → ∀ x ∈ leavesAll fp as, ∃ fs, x.1 = fp ++ fs ∧ AllTyped fs ∧ allConstrainable fs = true
  | _, [], _, x, hx => by simp [leavesAll] at hx
  | fp, a :: as, g, x, hx => by
    unfold leavesAll at hx; unfold AllGroupsOk at g
    rcases List.mem_append.mp hx with h | h
    · exact leaf_pack a g.1 x h
    · exact leafAll_pack as g.2 x h
end

mutual
theorem groupsOk_of : {fp : Pack} → {B : Int} → {a : Arg} → {m : Meaning} → Denotes T K fp B a m → GroupsOk a
  | _, _, .join _, _, .join h => by unfold GroupsOk; exact allGroupsOk_of h
  | _, _, .range _, _, .range h => by unfold GroupsOk; exact allGroupsOk_of h
  | _, _, .inner _ _, _, .inner h1 h2 h => by unfold GroupsOk; exact ⟨h1, h2, allGroupsOk_of h⟩
  | _, _, .int .., _, _ => by unfold GroupsOk; trivial
  | _, _, .float .., _, _ => by unfold GroupsOk; trivial
  | _, _, .str .., _, _ => by unfold GroupsOk; trivial
  | _, _, .rawChr .., _, _ => by unfold GroupsOk; trivial
  | _, _, .chr .., _, _ => by unfold GroupsOk; trivial
  | _, _, .bool .., _, _ => by unfold GroupsOk; trivial
  | _, _, .ptr .., _, _ => by unfold GroupsOk; trivial
  | _, _, .alignedJoin .., _, _ => by unfold GroupsOk; trivial
  | _, _, .separatedRange .., _, _ => by unfold GroupsOk; trivial
  | _, _, .tr .., _, _ => by unfold GroupsOk; trivial
theorem allGroupsOk_of : {fp : Pack} → {B : Int} → {as : List Arg} → {ms : List Meaning} → DenoteAll T K fp B as ms → AllGroupsOk as
  | _, _, [], _, .nil => by unfold AllGroupsOk; trivial
  | _, _, _ :: _, _, .cons h hs => by unfold AllGroupsOk; exact ⟨groupsOk_of h, allGroupsOk_of hs⟩
end

/-- C83: How the arguments of a call are grouped does not matter: two calls with the same arguments in the same order, each with the same facets in force, print the
same, whatever `join`, `range` and `with` they are inside of, and whether the facets are given to `with` of the destination, before the arguments or inside. -/
theorem grouping_law {c c' : Call} {ms : List Meaning} (h : c.Means T B ms) (hl : leavesAll c'.pack c'.args = leavesAll c.pack c.args) (he : c'.eol = c.eol)
    (ht : AllTyped c'.pack) (hg : AllGroupsOk c'.args) : Writes T c (c.text ms) ∧ Writes T c' (c.text ms) := by
  refine ⟨means_writes h, ?_⟩
  obtain ⟨_, K, hK, hd⟩ := h
  obtain ⟨K', hK', _⟩ := charsets_exist c'.pack ht
  obtain ⟨ns, h1, h2⟩ := leavesAll_of hd
  have hx : LeavesDenote T K' B (leavesAll c'.pack c'.args) ns := by
    rw [hl]
    cases hc : leavesAll c.pack c.args with
    | nil => rw [hc] at h1; cases h1; exact .nil
    | cons x l =>
      obtain ⟨fs, e1, t1, k1⟩ := leafAll_pack c.args (allGroupsOk_of hd) x (by rw [hc]; exact List.mem_cons_self ..)
      obtain ⟨fs', e2, t2, k2⟩ := leafAll_pack c'.args hg x (by rw [hl, hc]; exact List.mem_cons_self ..)
      have a := hK.append t1 k1
      have b := hK'.append t2 k2
      rw [← e1] at a
      rw [← e2] at b
      have : K' = K := (b.fn .void).symm.trans (a.fn .void)
      rw [this, ← hc]; exact h1
  obtain ⟨ks, k1, k2⟩ := of_leavesAll hg hx
  have := means_writes (c := c') ⟨ht, K', hK', k1⟩
  unfold Call.text at this ⊢
  rw [k2, h2, he] at this
  exact this

/-! ## Texts put together -/

/-- each of the calls with one of the arguments alone writes one of the texts -/
inductive EachWrites (T : CharT) (fp : Pack) : List Arg → List (List Nat) → Prop
  | nil : EachWrites T fp [] []
  | cons {a as x xs} : Writes T ⟨[], fp, [a], false⟩ x → EachWrites T fp as xs → EachWrites T fp (a :: as) (x :: xs)

theorem each_writes {fp : Pack} (ht : AllTyped fp) (hK : CharsetsAre fp K) {as : List Arg} {ms : List Meaning} (h : DenoteAll T K fp B as ms) :
    EachWrites T fp as (ms.map (·.text)) := by
  induction as generalizing ms with
  | nil => cases h; exact .nil
  | cons a as ih =>
    cases h with
    | @cons _ _ _ _ m ms h hs =>
      refine .cons ?_ (ih hs)
      have := means_writes (c := ⟨[], fp, [a], false⟩) ⟨by simpa [Call.pack] using ht, K, by simpa [Call.pack] using hK, by simpa [Call.pack] using (.cons h .nil : DenoteAll T K fp B [a] [m])⟩
      simpa [Call.text, total] using this

theorem sole {c : Call} {a : Arg} {ms : List Meaning} (hc : c.args = [a]) (h : c.Means T B ms) :
    ∃ K m, AllTyped c.pack ∧ CharsetsAre c.pack K ∧ ms = [m] ∧ Denotes T K c.pack B a m := by
  obtain ⟨ht, K, hK, hd⟩ := h
  rw [hc] at hd
  cases hd with
  | cons h hs => cases hs; exact ⟨K, _, ht, hK, rfl, h⟩

/-- C83: All the arguments: the concatenation of what each prints alone. -/
theorem arguments_law {fp : Pack} {as : List Arg} {ms : List Meaning} (h : (Call.mk [] fp as false).Means T B ms) :
    ∃ xs, EachWrites T fp as xs ∧ Writes T ⟨[], fp, as, false⟩ xs.flatten := by
  obtain ⟨ht, K, hK, hd⟩ := id h
  refine ⟨_, each_writes (by simpa [Call.pack] using ht) (by simpa [Call.pack] using hK) (by simpa [Call.pack] using hd), ?_⟩
  have key : ∀ l : List Meaning, (total l).text = (l.map (·.text)).flatten := by
    intro l; induction l with
    | nil => rfl
    | cons m l ih => simp [total, ih]
  have := means_writes h
  simpa [Call.text, key] using this

/-- C83: `separated_range(elements, sep)`: what each prints alone, with the separator between each two. -/
theorem separated_range_law {fp : Pack} {fmt : Bool} {sep : List Nat} {as : List Arg} {ms : List Meaning}
    (h : (Call.mk [] fp [.separatedRange fmt sep as] false).Means T B ms) :
    ∃ xs, EachWrites T fp as xs ∧ Writes T ⟨[], fp, [.separatedRange fmt sep as], false⟩ (sep.intercalate xs) := by
  obtain ⟨K, m, ht, hK, rfl, hd⟩ := sole rfl h
  have w := means_writes h
  cases hd with
  | separatedRange wc _ _ _ _ hs =>
    refine ⟨_, each_writes (by simpa [Call.pack] using ht) (by simpa [Call.pack] using hK) (by simpa [Call.pack] using hs), ?_⟩
    simpa [Call.text, total, Print.separated] using w

/-- C83: `tr(str, args...)`: the tr-string with the references replaced by what the arguments they refer to print alone, or by the replacement character of the
charset. -/
theorem tr_law {fp : Pack} {str : List Nat} {as : List Arg} {ms : List Meaning}
    (h : (Call.mk [] fp [.tr str as] false).Means T B ms) :
    ∃ xs segs K, EachWrites T fp as xs ∧ Tr.Reads 0 str segs ∧ CharsetsAre fp K ∧
      Writes T ⟨[], fp, [.tr str as], false⟩ (Tr.expand xs (K T).name.cs.replacement 0 segs) := by
  obtain ⟨K, m, ht, hK, rfl, hd⟩ := sole rfl h
  have w := means_writes h
  cases hd with
  | tr wc _ hr _ hs _ =>
    refine ⟨_, _, K, each_writes (by simpa [Call.pack] using ht) (by simpa [Call.pack] using hK) (by simpa [Call.pack] using hs), hr, by simpa [Call.pack] using hK, ?_⟩
    simpa [Call.text, total, Meaning.tr] using w

theorem digits_unique {ds l ds' l' : List Nat} (hd : ∀ d ∈ ds, Tr.IsDigit d) (hl : ∀ c, l.head? = some c → ¬ Tr.IsDigit c)
    (hd' : ∀ d ∈ ds', Tr.IsDigit d) (hl' : ∀ c, l'.head? = some c → ¬ Tr.IsDigit c) (e : ds ++ l = ds' ++ l') : ds = ds' ∧ l = l' := by
  induction ds generalizing ds' with
  | nil =>
    cases ds' with
    | nil => exact ⟨rfl, e⟩
    | cons d ds' => exact absurd (hd' d (List.mem_cons_self ..)) (hl d (by simp only [List.nil_append] at e; rw [e]; rfl))
  | cons d ds ih =>
    cases ds' with
    | nil => exact absurd (hd d (List.mem_cons_self ..)) (hl' d (by simp only [List.nil_append] at e; rw [← e]; rfl))
    | cons d' ds' =>
      simp only [List.cons_append, List.cons.injEq] at e
      obtain ⟨rfl, rfl⟩ := ih (fun x hx => hd x (List.mem_cons_of_mem _ hx)) (fun x hx => hd' x (List.mem_cons_of_mem _ hx)) e.2
      exact ⟨by rw [e.1], rfl⟩

/-- a tr-string is read in one way -/
theorem reads_one {i : Nat} {l : List Nat} {segs segs' : List Tr.Seg} (h : Tr.Reads i l segs) (h' : Tr.Reads i l segs') : segs = segs' := by
  induction h generalizing segs' with
  | done => cases h'; rfl
  | char hc _ ih => cases h' with
    | char _ h => rw [ih h]
    | brace => exact absurd rfl hc
    | comment => exact absurd rfl hc
    | positional => exact absurd rfl hc
    | next => exact absurd rfl hc
  | brace _ ih =>
    generalize hx : 0x7B :: 0x7B :: _ = x at h'
    cases h' with
    | done => cases hx
    | char hc _ => cases hx; exact absurd rfl hc
    | brace h => cases hx; rw [ih h]
    | comment => cases hx
    | @positional _ ds _ _ hn hd _ _ =>
      cases ds with
      | nil => exact absurd rfl hn
      | cons d ds =>
        simp only [List.cons_append, List.cons.injEq] at hx
        have := hd d (List.mem_cons_self ..)
        rw [← hx.2.1] at this
        exact absurd this (by decide)
    | next hh _ => cases hx; exact absurd rfl (hh _ rfl).1
  | comment _ ih =>
    generalize hx : 0x7B :: 0x2D :: _ = x at h'
    cases h' with
    | done => cases hx
    | char hc _ => cases hx; exact absurd rfl hc
    | brace h => cases hx
    | comment h => cases hx; rw [ih h]
    | @positional _ ds _ _ hn hd _ _ =>
      cases ds with
      | nil => exact absurd rfl hn
      | cons d ds =>
        simp only [List.cons_append, List.cons.injEq] at hx
        have := hd d (List.mem_cons_self ..)
        rw [← hx.2.1] at this
        exact absurd this (by decide)
    | next hh _ => cases hx; exact absurd rfl (hh _ rfl).2.1
  | @positional i ds l segs hn hd hl _ ih =>
    generalize hx : 0x7B :: (ds ++ l) = x at h'
    have first : ∀ d r, ds ++ l = d :: r → Tr.IsDigit d := by
      intro d r e
      cases ds with
      | nil => exact absurd rfl hn
      | cons y ds => cases e; exact hd _ (List.mem_cons_self ..)
    cases h' with
    | done => cases hx
    | char hc _ => cases hx; exact absurd rfl hc
    | brace h => simp only [List.cons.injEq, true_and] at hx; exact absurd (first _ _ hx) (by decide)
    | comment h => simp only [List.cons.injEq, true_and] at hx; exact absurd (first _ _ hx) (by decide)
    | @positional _ ds' l' _ _ hd' hl' h =>
      simp only [List.cons.injEq, true_and] at hx
      obtain ⟨rfl, rfl⟩ := digits_unique hd hl hd' hl' hx
      rw [ih h]
    | next hh _ =>
      simp only [List.cons.injEq, true_and] at hx
      subst hx
      cases hc : ds ++ l with
      | nil => simp only [List.append_eq_nil_iff] at hc; exact absurd hc.1 hn
      | cons d r => exact absurd (first d r hc) (hh d (by rw [hc]; rfl)).2.2
  | @next i l segs hh _ ih =>
    generalize hx : 0x7B :: l = x at h'
    cases h' with
    | done => cases hx
    | char hc _ => cases hx; exact absurd rfl hc
    | brace h => cases hx; exact absurd rfl (hh _ rfl).1
    | comment h => cases hx; exact absurd rfl (hh _ rfl).2.1
    | @positional _ ds _ _ hn hd _ _ =>
      simp only [List.cons.injEq, true_and] at hx
      subst hx
      cases ds with
      | nil => exact absurd rfl hn
      | cons d ds => exact absurd (hd d (List.mem_cons_self ..)) (hh d rfl).2.2
    | next _ h => cases hx; rw [ih h]

/-- the string `"{}{}…{}"`, with `n` references -/
def refs : Nat → List Nat
  | 0 => []
  | n + 1 => 0x7B :: 0x7D :: refs n

theorem reads_refs (n i k : Nat) : ∃ segs, Tr.Reads i (refs n) segs ∧ ∀ xs : List (List Nat), ∀ r, k + n = xs.length → Tr.expand xs r k segs = (xs.drop k).flatten := by
  induction n generalizing i k with
  | zero => exact ⟨[], .done, fun xs r e => by rw [List.drop_eq_nil_of_le (by omega)]; rfl⟩
  | succ n ih =>
    obtain ⟨segs, h1, h2⟩ := ih (i + 2) (k + 1)
    refine ⟨.next i :: segs, ?_, ?_⟩
    · refine .next (l := 0x7D :: refs n) (by simp [Tr.IsDigit]) ?_
      have : Tr.afterClose (0x7D :: refs n) = refs n := by simp [Tr.afterClose]
      rw [this]
      have e : i + (1 + (0x7D :: refs n).length - (refs n).length) = i + 2 := by simp; omega
      rw [e]; exact h1
    · intro xs r e
      have hk : k < xs.length := by omega
      simp only [Tr.expand]
      rw [h2 xs r (by omega), List.drop_eq_getElem_cons hk, List.flatten_cons]
      simp [List.getD_eq_getElem?_getD, hk]

/-- C83: `tr("{}{}…{}", args...)` prints what the arguments print without `tr`. -/
theorem tr_refs_law {fp : Pack} {as : List Arg} {ms : List Meaning} (h : (Call.mk [] fp [.tr (refs as.length) as] false).Means T B ms) :
    ∃ x, Writes T ⟨[], fp, [.tr (refs as.length) as], false⟩ x ∧ Writes T ⟨[], fp, as, false⟩ x := by
  obtain ⟨K, m, ht, hK, rfl, hd⟩ := sole rfl h
  have w := means_writes h
  cases hd with
  | @tr _ _ _ _ ns segs wc _ hr _ hs _ =>
    obtain ⟨segs', r', e'⟩ := reads_refs as.length 0 0
    have hsegs : segs = segs' := reads_one hr r'
    subst hsegs
    refine ⟨_, w, ?_⟩
    obtain ⟨xs, hx, w'⟩ := arguments_law (fp := fp) (as := as) (T := T) (B := wmax) (ms := ns) ⟨ht, K, hK, hs⟩
    have hxs := each_writes (fp := fp) ht hK hs
    have hu : ∀ {as xs ys}, EachWrites T fp as xs → EachWrites T fp as ys → xs = ys := by
      intro as xs ys h
      induction h generalizing ys with
      | nil => intro h; cases h; rfl
      | cons h _ ih => intro h'; cases h' with | cons h1 h2 => rw [writes_unique h h1, ih h2]
    have hlen : ∀ {as xs}, EachWrites T fp as xs → as.length = xs.length := by
      intro as xs h; induction h with
      | nil => rfl
      | cons _ _ ih => simp [ih]
    have := e' xs (K T).name.cs.replacement (by rw [Nat.zero_add]; exact hlen hx)
    simp only [Call.text, total, Meaning.tr, List.append_nil, Bool.false_eq_true, if_false]
    rw [← hu hx hxs, this]
    simpa using w'

/-- C83: `join(args...)` with alignment: what the arguments print, after and before fill characters: as many as fit in what is left of the width (C17, C50:
`FillCount`), `(total ns).width` being the width of the arguments. -/
theorem aligned_join_law {fp : Pack} {a : IntPrinter.AlignFmt} {as : List Arg} {ms : List Meaning}
    (h : (Call.mk [] fp [.alignedJoin a as] false).Means T B ms) :
    ∃ x n ns K, CharsetsAre fp K ∧ (Call.mk [] fp as false).Means T (max B a.width) ns ∧ Writes T ⟨[], fp, as, false⟩ x ∧
      Print.FillCount a.width (total ns).width n ∧
      Writes T ⟨[], fp, [.alignedJoin a as], false⟩ (IntPrinter.Spec.times (enc T K) (IntPrinter.Spec.before a.align n) a.fill ++ x ++
        IntPrinter.Spec.times (enc T K) (n - IntPrinter.Spec.before a.align n) a.fill) := by
  obtain ⟨K, m, ht, hK, rfl, hd⟩ := sole rfl h
  have w := means_writes h
  cases hd with
  | alignedJoin n _ _ hs _ hf _ _ =>
    refine ⟨_, n, _, K, by simpa [Call.pack] using hK, ⟨ht, K, hK, hs⟩, means_writes ⟨ht, K, hK, hs⟩, hf, ?_⟩
    simpa [Call.text, total, Meaning.pad, Print.padded] using w

/-! ### cases -/

/-- the call of CallProps.lean, with the second facet given to `strf::with`, the first three arguments in a `join` and the others in a `range` -/
def regrouped : Call where
  withs := []
  facets := [.facet (.numpunct 10) (.numpunct 10 ⟨Numpunct.ctor2 [3], 0x2C, 0x2E⟩)]
  args := [.inner [.constrained isBool (.facet .lettercase (.lettercase .upper))] [.join (aCall.args.take 3), .range (aCall.args.drop 3)]]
  eol := true

example : Writes .char8 regrouped (Print.txt "x = 1.234.567 0xFFFalseTRUE**-42a21!7, 8\n") := by
  obtain ⟨ms, hM, e⟩ := aCall_means
  rw [← e]
  refine (grouping_law (c' := regrouped) hM rfl rfl ?_ ?_).2
  · simp [regrouped, Call.pack, AllTyped, Typed, FacetArg.cat, FacetArg.Typed]
  · simp [regrouped, aCall, AllGroupsOk, GroupsOk, AllTyped, Typed, FacetArg.cat, FacetArg.Typed, allConstrainable, constrainable, FacetArg.constrainable]

/-- `f(1, 2)`, `f(3)`, and so on -/
theorem ints_mean (T : CharT) (xs : List Int) (h : ∀ x ∈ xs, (intTy.val x).Ok) (eol : Bool) : ∃ ms, (Call.mk [] [] (xs.map (.int intTy [])) eol).Means T B ms := by
  have all : ∃ ms, DenoteAll T (fun U => ⟨utfOf U, true⟩) [] B (xs.map (.int intTy [])) ms := by
    induction xs with
    | nil => exact ⟨_, .nil⟩
    | cons x xs ih =>
      exact denote_cons ⟨_, plain_int intTy x (h x (List.mem_cons_self ..)) .lower Numpunct.Facet.default (.inr ⟨rfl, rfl⟩) (.inr ⟨rfl, rfl⟩)⟩
        (ih fun y hy => h y (List.mem_cons_of_mem _ hy))
  obtain ⟨ms, hm⟩ := all
  exact ⟨ms, trivial, _, fun tag U => .inr ⟨rfl, rfl⟩, hm⟩

example : ∃ x y, Writes .char ⟨[], [], [.int intTy [] 12, .int intTy [] 3], false⟩ x ∧ Writes .char ⟨[], [], [.int intTy [] (-4)], true⟩ y ∧
    Writes .char ⟨[], [], [.int intTy [] 12, .int intTy [] 3, .int intTy [] (-4)], true⟩ (x ++ y) := by
  obtain ⟨_, ha⟩ := ints_mean (B := 0) .char [12, 3] (by decide) false
  obtain ⟨_, hb⟩ := ints_mean (B := 0) .char [-4] (by decide) true
  exact concat_law ha hb

example : callPrinted .char ⟨[], [], [.tr (refs 2) [.int intTy [] 12, .int intTy [] 3]], false⟩ = some (Print.txt "123") := by decide +kernel

end Strf.Program

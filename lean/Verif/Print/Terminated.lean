import Verif.Print.PolicyProps
import Verif.Dest.Sharp
/-!
# C54: when a char array is always terminated

The terminator is lost only if a printer goes on writing more than 64 units after the truncation. So it is not if the first argument that does not fit
has a text of at most 64 units, whatever the number of arguments, the size of the array, and the arguments before it and after it.
-/
namespace Strf.Dest.Arr
variable {α : Type}

/-- as `Rep`; moreover, since the text had the length `b`, the end of what was kept is lost only if more than 64 units were added -/
def RepFrom (N cap b : Nat) (s : Arr α) (t : List α) : Prop :=
  Rep N cap s t ∧ b ≤ t.length ∧ (s.good = false → s.it = .garbage 64 → b + 64 < t.length) ∧
    (s.good = false → s.it ≠ .garbage 64 → ∀ g, s.ptr = .garbage g → b + g ≤ t.length)

theorem lawfulFrom (N cap b : Nat) : Lawful (dest (α := α)) (RepFrom N cap b) where
  poke := by
    rintro s t xs ⟨h, hb, h1, h2⟩ hx
    obtain ⟨s', e, r, sp, gd⟩ := (lawful N cap).poke s t xs h hx
    have gd' : s'.good = s.good := gd
    have hx' : xs.length ≤ s.space := hx
    have e' : Arr.poke s xs = some s' := e
    -- what the stores change
    have hit : s'.it = s.it := by
      unfold Arr.poke at e'
      rw [if_pos hx'] at e'
      split at e'
      · obtain ⟨a, _, rfl⟩ := Option.map_eq_some_iff.mp e'; rfl
      · obtain ⟨a, _, rfl⟩ := Option.map_eq_some_iff.mp e'; rfl
      · cases e'
    refine ⟨s', e, ⟨r, by simp; omega, fun hg hi => ?_, fun hg hi g hp => ?_⟩, sp, gd⟩
    · have := h1 (by rw [← gd']; exact hg) (by rw [← hit]; exact hi)
      simp; omega
    · rcases h with h | ⟨k1, ⟨g0, _, k2⟩, _⟩
      · rw [gd', h.1] at hg; cases hg
      · have := h2 k1 (by rw [← hit]; exact hi) g0 k2
        unfold Arr.poke at e'
        rw [if_pos hx', k2] at e'
        obtain ⟨a, _, rfl⟩ := Option.map_eq_some_iff.mp e'
        simp at hp
        simp; omega
  recycle := by
    rintro s t ⟨h, hb, h1, h2⟩ hx
    obtain ⟨r, sp, gd⟩ := (lawful N cap).recycle s t h hx
    refine ⟨⟨r, hb, fun hg hi => ?_, fun hg hi g hp => ?_⟩, sp, gd⟩
    · rcases h with h | h
      · have : (recycle s).it = .user t.length := (good_recycle h).1.2.2.2.2.1
        have hi' : (recycle s).it = .garbage 64 := hi
        rw [this] at hi'; cases hi'
      · exact h1 h.1 (by
          have hi' : (recycle s).it = .garbage 64 := hi
          simpa [recycle, h.1] using hi')
    · have hp' : (recycle s).ptr = .garbage g := hp
      simp [recycle] at hp'
      subst hp'
      simpa using hb
  doWrite := by
    rintro s t xs ⟨h, hb, h1, h2⟩ hx
    obtain ⟨s', e, r, gd⟩ := (lawful N cap).doWrite s t xs h hx
    have e' : Arr.doWrite s xs = some s' := e
    have hx' : s.space < xs.length := hx
    have hptr : s'.ptr = .garbage 0 ∧ s'.good = false := by
      unfold Arr.doWrite at e'
      dsimp only at e'
      rw [if_neg (by omega)] at e'
      obtain ⟨a, _, rfl⟩ := Option.map_eq_some_iff.mp e'
      exact ⟨rfl, rfl⟩
    refine ⟨s', e, ⟨r, by simp; omega, fun hg hi => ?_, fun hg hi g hp => ?_⟩, gd⟩
    · rcases h with h | ⟨k1, ⟨g0, _, k2⟩, k3, k4, k5⟩
      · obtain ⟨s'', e'', i⟩ := good_doWrite (plain := True) (exact := True) h xs hx'
        rw [e'] at e''
        cases e''
        rcases i with i | ⟨A, k, ⟨_, _, _, _, b5, _⟩, _⟩
        · rw [i.1] at hg; cases hg
        · rw [b5] at hi; cases hi
      · have hsp : space s = 64 - g0 := by simp [space, k2, k3]
        simp only [List.length_append]
        by_cases hi0 : s.it = .garbage 64
        · have := h1 k1 hi0; omega
        · have := h2 k1 hi0 g0 k2; omega
    · rw [hptr.1] at hp
      cases hp
      simp; omega
  bad := by
    rintro s t xs ⟨h, hb, h1, h2⟩ hg
    refine ⟨(lawful N cap).bad s t xs h hg, by simp; omega, fun hg hi => ?_, fun hg hi g hp => ?_⟩
    · have := h1 hg hi; simp; omega
    · have := h2 hg hi g hp; simp; omega

theorem RepFrom.of_good {N cap b : Nat} {s : Arr α} {t : List α} (h : Rep N cap s t) (hg : s.good = true) (hb : b ≤ t.length) : RepFrom N cap b s t :=
  ⟨h, hb, fun g => by rw [hg] at g; (cases g), fun g => by rw [hg] at g; (cases g)⟩

end Strf.Dest.Arr

namespace Strf.Print
open Strf.Dest

/-- Of arguments with the meanings `ms`, printed after `n` units where there is room for `cap` of them, the first whose text does not fit, if any,
has a text of at most 64 units. -/
def OverhangOk (cap n : Nat) (ms : List Meaning) : Prop :=
  ∀ before m after, ms = before ++ m :: after → n + (total before).text.length ≤ cap → cap < n + (total before).text.length + m.text.length →
    m.text.length ≤ 64

theorem OverhangOk.of_short {cap n : Nat} {ms : List Meaning} (h : ∀ m ∈ ms, m.text.length ≤ 64) : OverhangOk cap n ms :=
  fun before m after e _ _ => h m (by rw [e]; simp)

theorem OverhangOk.tail {cap n : Nat} {m : Meaning} {ms : List Meaning} (h : OverhangOk cap n (m :: ms)) : OverhangOk cap (n + m.text.length) ms := by
  intro before m' after e h1 h2
  refine h (m :: before) m' after (by rw [e]; rfl) ?_ ?_ <;> simp only [total, List.length_append] <;> omega

/-- the end of what was kept is known after all arguments, if the first that does not fit has no text of more than 64 units -/
theorem printAll_end {N cap : Nat} {its : List (Item (Arr Nat))} {ms : List Meaning} {B : Int}
    (h : ∀ b, AllMean true Arr.dest (fun s t => Arr.RepFrom N cap b s t) B its ms) :
    ∀ (s : Arr Nat) (t : List Nat), Arr.Rep N cap s t → s.good = true → OverhangOk cap t.length ms →
      ∃ s', printAll Arr.dest its s = some s' ∧ Arr.Rep N cap s' (t ++ (total ms).text) ∧ (s'.good = false → s'.it ≠ .garbage 64) := by
  induction its generalizing ms with
  | nil =>
    intro s t r g _
    have : ms = [] := by cases h 0; rfl
    subst this
    exact ⟨s, rfl, by simpa [total] using r, fun hg => by rw [g] at hg; cases hg⟩
  | cons it its ih =>
    intro s t r g hs
    obtain ⟨m, ms', rfl⟩ : ∃ m ms', ms = m :: ms' := by cases h 0; exact ⟨_, _, rfl⟩
    have hm : ∀ b, it.Means true Arr.dest (fun s t => Arr.RepFrom N cap b s t) B m := fun b => by cases h b; assumption
    have hms : ∀ b, AllMean true Arr.dest (fun s t => Arr.RepFrom N cap b s t) B its ms' := fun b => by cases h b; assumption
    obtain ⟨s1, e1, ⟨r1, _, l1, _⟩, a1⟩ := (hm t.length).prints s t (Arr.RepFrom.of_good r g (Nat.le_refl _))
    rw [printAll, e1, Option.bind_some]
    by_cases hg : s1.good = true
    · rw [if_pos hg]
      obtain ⟨s2, e2, r2, l2⟩ := ih hms s1 _ r1 hg (by rw [List.length_append]; exact hs.tail)
      exact ⟨s2, e2, by simpa [total, List.append_assoc] using r2, l2⟩
    · have hg' : s1.good = false := by simpa using hg
      rw [if_neg hg]
      refine ⟨s1, rfl, ?_, fun _ hi => ?_⟩
      · have := (Arr.lawful N cap).bad s1 _ (total ms').text r1 hg'
        simpa [total, List.append_assoc] using this
      · have := l1 hg' hi
        have hgood : Arr.InvGood N cap s t := r.resolve_right fun b => by rw [b.1] at g; cases g
        have hcap : t.length ≤ cap := hgood.2.2.2.1
        have hsp : Arr.space s = cap - t.length := by simp [Arr.space, hgood.2.1, hgood.2.2.1]
        have hover : cap < t.length + m.text.length := by
          refine Nat.lt_of_not_le fun hle => ?_
          have := (a1.2 rfl g (show m.text.length ≤ Arr.space s by omega)).2
          have : s1.good = true := this
          rw [hg'] at this; cases this
        have h64 := hs [] m ms' rfl (by simpa [total] using hcap) (by simpa [total] using hover)
        simp only [List.length_append] at this
        omega

/-- the same with the end of the line -/
theorem printPlain_end {N cap : Nat} {its : List (Item (Arr Nat))} {ms : List Meaning} {B : Int}
    (h : ∀ b, AllMean true Arr.dest (fun s t => Arr.RepFrom N cap b s t) B its ms) (hs : OverhangOk cap 0 ms) (eol : Bool)
    (s0 : Arr Nat) (r0 : Arr.Rep N cap s0 []) (g0 : s0.good = true) :
    ∃ s, printPlain Arr.dest eol its s0 = some s ∧ Arr.Rep N cap s (lineText eol (total ms).text) ∧ (s.good = false → s.it ≠ .garbage 64) := by
  obtain ⟨s1, e1, r1, l1⟩ := printAll_end h _ [] r0 g0 hs
  rw [List.nil_append] at r1
  rw [printPlain, e1, Option.bind_some]
  cases eol with
  | false => exact ⟨s1, rfl, by simpa [lineText] using r1, l1⟩
  | true =>
    obtain ⟨s, e, r, _⟩ := endLine_prints (τ := true) (Arr.lawful N cap) true s1 _ r1
    refine ⟨s, e, by simpa [lineText] using r, fun hb => ?_⟩
    have e' : (Op.put 0x0A).run Arr.dest s1 = some s := e
    rcases r1 with g1 | ⟨h1, h2, h3, h4, h5, h6, k, c1, c2, c3, c4, c5⟩
    · obtain ⟨s', e2, i⟩ := Arr.good_op (plain := True) (exact := True) g1 (Op.put 0x0A) trivial (fun _ => trivial) (fun _ => trivial)
      rw [e'] at e2
      cases e2
      rcases i with i | ⟨A, k, ⟨_, _, _, _, b5, _⟩, _⟩
      · rw [i.1] at hb; cases hb
      · rw [b5]; simp
    · have hk : s1.it = .user k := by
        rcases c5 with c5 | c5
        · exact c5
        · exact absurd c5 (l1 h1)
      obtain ⟨s', e2, i⟩ := Arr.bad_op (A := s1.arr) (k := k) ⟨h1, h2, h3, h4, hk, rfl⟩ (Op.put 0x0A) trivial (fun xs hx => by cases hx)
      rw [e'] at e2
      cases e2
      rw [i.2.2.2.2.1]; simp

/-- C54 (part): strf::to(char_array)(args...) and .line(args...) terminate the array, inside of it, with a prefix of the text before the terminator, and
return a pointer to the terminator, if the first argument that does not fit has a text of at most 64 units; whatever the other arguments, their number
and the size of the array. Missing: when that one is longer it is false (`to_cstr_terminated_wrong`). -/
theorem to_cstr_terminated_partial (arr garb : List Nat) (hN : 1 ≤ arr.length) (hg : garb.length = 64) {its : List (Item (Arr Nat))} {ms : List Meaning} {B : Int}
    (h : ∀ b, AllMean true Arr.dest (fun s t => Arr.RepFrom arr.length (arr.length - 1) b s t) B its ms)
    (hs : OverhangOk (arr.length - 1) 0 ms) (eol : Bool) :
    ∃ s s' k truncated, printPlain Arr.dest eol its (Arr.initCstr arr garb) = some s ∧ Arr.finishCstr 0 s = some (s', .user k, truncated) ∧
      s'.arr.length = arr.length ∧ k < arr.length ∧ k ≤ (lineText eol (total ms).text).length ∧
      s'.arr.take (k + 1) = (lineText eol (total ms).text).take k ++ [0] ∧ (truncated = false → k = (lineText eol (total ms).text).length) := by
  obtain ⟨s, e, r, l⟩ := printPlain_end h hs eol _ (Arr.rep_initCstr arr garb hg) rfl
  obtain ⟨_, f2, _, _, f5⟩ := Arr.finishCstr_of_rep 0 r (by omega)
  have hsome := f2.1 (by
    by_cases hgd : s.good = true
    · exact .inl hgd
    · exact .inr (l (by simpa using hgd)))
  obtain ⟨⟨s', p, tr⟩, es⟩ := Option.isSome_iff_exists.mp hsome
  obtain ⟨hl, k, hp, hk1, hk2, ht, hk3, _⟩ := f5 s' p tr es
  exact ⟨s, s', k, tr, e, by rw [es, hp], hl, hk1, hk2, ht, hk3⟩

/-- C54 (part): strf::to_range(begin, end)(args...) returns a pointer in the range, to the end of the prefix of the text that is there, if the first
argument that does not fit has a text of at most 64 units. Missing: as before. -/
theorem to_range_end_partial (arr garb : List Nat) (hg : garb.length = 64) {its : List (Item (Arr Nat))} {ms : List Meaning} {B : Int}
    (h : ∀ b, AllMean true Arr.dest (fun s t => Arr.RepFrom arr.length arr.length b s t) B its ms)
    (hs : OverhangOk arr.length 0 ms) (eol : Bool) :
    ∃ s k truncated, printPlain Arr.dest eol its (Arr.initArray arr garb) = some s ∧ Arr.finishArray s = (.user k, truncated) ∧
      s.arr.length = arr.length ∧ k ≤ arr.length ∧ k ≤ (lineText eol (total ms).text).length ∧
      s.arr.take k = (lineText eol (total ms).text).take k ∧ (truncated = false → k = (lineText eol (total ms).text).length) := by
  obtain ⟨s, e, r, l⟩ := printPlain_end h hs eol _ (Arr.rep_initArray arr garb hg) rfl
  obtain ⟨h1, h2, k, h3, h4, h5, h6, _, h8⟩ := Arr.finishArray_of_rep r rfl
  refine ⟨s, k, (Arr.finishArray s).2, e, ?_, h1, h4, h3, h5, h6⟩
  rcases h8 with h8 | ⟨hb, h8⟩
  · exact Prod.ext h8 rfl
  · have hgd : s.good = false := by simpa [Arr.finishArray] using hb
    have : (Arr.finishArray s).1 = s.it := by simp [Arr.finishArray, hgd]
    exact absurd (this.symm.trans h8) (l hgd)

end Strf.Print

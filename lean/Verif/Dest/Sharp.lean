import Verif.Dest.Props
import Mathlib.Logic.Basic
/-!
# C02, C03: exactly which histories lose the end of the array; C06: for which streams the delivered text is a prefix
-/
namespace Strf.Dest
variable {α : Type}

namespace Arr

/-- truncated, and the end of the text is no longer known -/
def Lost (s : Arr α) (A : List α) : Prop :=
  s.good = false ∧ (∃ g, g ≤ 64 ∧ s.ptr = .garbage g) ∧ s.end_ = .garbage 64 ∧ s.garb.length = 64 ∧ s.it = .garbage 64 ∧ s.arr = A

theorem Lost.poke {s : Arr α} {A : List α} (h : Lost s A) (xs : List α) (hx : xs.length ≤ s.space) : ∃ s', poke s xs = some s' ∧ Lost s' A := by
  obtain ⟨h1, ⟨g, hg, h2⟩, h3, h4, h5, h6⟩ := h
  have hsp : s.space = 64 - g := by simp [space, h2, h3]
  obtain ⟨b, e, hl, _, _⟩ := storeAt_some (buf := s.garb) (i := g) (xs := xs) (by omega)
  refine ⟨{ s with garb := b, ptr := .garbage (g + xs.length) }, ?_, h1, ⟨_, by omega, rfl⟩, h3, ?_, h5, h6⟩
  · rw [Arr.poke, if_pos hx, h2]; simp [e]
  · simp [hl, h4]

theorem Lost.recycle {s : Arr α} {A : List α} (h : Lost s A) : Lost (recycle s) A ∧ (recycle s).space = 64 := by
  obtain ⟨h1, ⟨g, hg, h2⟩, h3, h4, h5, h6⟩ := h
  simp only [Arr.recycle, h1]
  refine ⟨⟨h1, ⟨0, by omega, rfl⟩, h3, h4, h5, h6⟩, ?_⟩
  simp [space, h3]

/-- a long `write` to the garbage buffer -/
theorem garbage_doWrite {s : Arr α} {A : List α} (h1 : s.good = false) (h2 : ∃ g, g ≤ 64 ∧ s.ptr = .garbage g) (h3 : s.end_ = .garbage 64)
    (h4 : s.garb.length = 64) (h6 : s.arr = A) (xs : List α) (hx : s.space < xs.length) : ∃ s', doWrite s xs = some s' ∧ Lost s' A := by
  obtain ⟨g, hg, h2⟩ := h2
  have hsp : s.space = 64 - g := by simp [space, h2, h3]
  obtain ⟨b, e, hl, _, _⟩ := storeAt_some (buf := s.garb) (i := g) (xs := xs.take s.space) (by simp; omega)
  have ep : Arr.poke s (xs.take s.space) = some { s with garb := b, ptr := .garbage (g + (xs.take s.space).length) } := by
    rw [Arr.poke, if_pos (by simp; omega), h2]
    simp [e]
  refine ⟨{ s with garb := b, ptr := .garbage 0, it := s.end_, end_ := .garbage 64, good := false }, ?_, rfl, ⟨0, by omega, rfl⟩, rfl, ?_, h3, h6⟩
  · unfold doWrite
    dsimp only
    rw [if_neg (by omega), ep]
    rfl
  · simp [hl, h4]

theorem Lost.op {s : Arr α} {A : List α} (h : Lost s A) (op : Op α) (hop : op.Ok) : ∃ s', op.run dest s = some s' ∧ Lost s' A := by
  cases op with
  | write xs =>
    simp only [Op.run, Dest.write, dest]
    split
    · split
      · exact h.poke xs (by assumption)
      · exact garbage_doWrite h.1 h.2.1 h.2.2.1 h.2.2.2.1 h.2.2.2.2.2 xs (by omega)
    · exact ⟨s, rfl, h⟩
  | put c =>
    simp only [Op.run, Dest.put, dest, flush]
    split
    · exact h.poke [c] (by simp; omega)
    · have := h.recycle
      exact this.1.poke [c] (by simp [this.2])
  | fill n c =>
    simp only [Op.run, Dest.writeFill, dest, flush]
    split
    · split
      · exact h.poke _ (by simp; omega)
      · simp only [fillContinuation]
        obtain ⟨s1, e1, i1⟩ := h.poke (List.replicate s.space c) (by simp)
        simp only [e1, fillLoop, flush]
        have := i1.recycle.1
        exact ⟨_, if_neg (by simp [this.1]), this⟩
    · exact ⟨s, rfl, h⟩
  | raw n xs =>
    simp only [Op.run, Dest.ensure, dest]
    have := h.recycle
    split
    · exact this.1.poke xs (by rw [this.2]; exact Nat.le_trans hop.1 hop.2)
    · exact h.poke xs (by have := hop.1; omega)
  | flush => exact ⟨_, rfl, h.recycle.1⟩

theorem Lost.ops (ops : List (Op α)) : ∀ {s : Arr α} {A : List α}, Lost s A → (∀ op ∈ ops, op.Ok) → ∃ s', runOps dest s ops = some s' ∧ Lost s' A := by
  induction ops with
  | nil => intro s A h _; exact ⟨s, rfl, h⟩
  | cons op ops ih =>
    intro s A h hok
    obtain ⟨s1, e1, i1⟩ := h.op op (hok op (by simp))
    obtain ⟨s2, e2, i2⟩ := ih i1 (fun o ho => hok o (by simp [ho]))
    exact ⟨s2, by simp [runOps, e1, e2], i2⟩

/-- every history either is safe, or loses the end -/
theorem lost_of_unsafe {N cap : Nat} (ops : List (Op α)) : ∀ {s : Arr α} {t : List α}, Inv N cap False False s t → (∀ op ∈ ops, op.Ok) →
    ¬ SafeLate dest s ops →
    ∃ s' A k, runOps dest s ops = some s' ∧ Lost s' A ∧ A.length = N ∧ k ≤ cap ∧ k ≤ (t ++ textOf ops).length ∧ A.take k = (t ++ textOf ops).take k := by
  induction ops with
  | nil => intro s t _ _ h; exact absurd trivial h
  | cons op ops ih =>
    intro s t h hok hun
    by_cases hl : ∀ xs, op = .write xs → s.good = true ∨ xs.length ≤ s.space
    · obtain ⟨s1, e1, i1⟩ := inv_op h op (hok op (by simp)) (fun p => p.elim) (fun p => p.elim) hl
      obtain ⟨s2, A, k, e2, h2, h3, h4, h5, h6⟩ := ih i1 (fun o ho => hok o (by simp [ho]))
        (fun hs => hun ⟨hl, fun s' e' => by rw [e1] at e'; cases e'; exact hs⟩)
      refine ⟨s2, A, k, by simp [runOps, e1, e2], h2, h3, h4, ?_, ?_⟩
      · simpa [textOf, List.append_assoc] using h5
      · simpa [textOf, List.append_assoc] using h6
    · simp only [not_forall] at hl
      obtain ⟨xs, rfl, hl⟩ := hl
      rw [not_or] at hl
      rcases h with h | ⟨A, k, hb, h1, h2, h3, h4, h5, _⟩
      · exact absurd h.1 hl.1
      · obtain ⟨b1, b2, b3, b4, b5, b6⟩ := hb
        obtain ⟨s1, e1, i1⟩ := garbage_doWrite b1 b2 b3 b4 b6 xs (by omega)
        obtain ⟨s2, e2, i2⟩ := Lost.ops ops i1 (fun o ho => hok o (by simp [ho]))
        have e0 : (Op.write xs).run dest s = some s1 := by
          simp only [Op.run, Dest.write, dest]
          rw [if_pos (by omega), if_neg hl.2, e1]
        refine ⟨s2, A, k, by simp [runOps, e0, e2], i2, h1, h2, by simp; omega, ?_⟩
        rw [h5, List.take_append_of_le_length h4]

end Arr

/-- C02, exactly: whatever the history, the array holds a prefix of the text and nothing outside of it is written while the text is written; and `finish()`
terminates it, inside the array, if and only if the destination, once truncated, was never asked for a `write` of more than what was left of its garbage
space. Otherwise it stores the terminator outside of every buffer. -/
theorem cstr_terminated_iff (zero : α) (arr garb : List α) (hN : 1 ≤ arr.length) (hg : garb.length = 64) (ops : List (Op α)) (hok : ∀ op ∈ ops, op.Ok) :
    ∃ s k, runOps Arr.dest (Arr.initCstr arr garb) ops = some s ∧ s.arr.length = arr.length ∧ k < arr.length ∧ k ≤ (textOf ops).length ∧
      s.arr.take k = (textOf ops).take k ∧
      ((∃ s' truncated, Arr.finishCstr zero s = some (s', .user k, truncated) ∧ s'.arr.take (k + 1) = (textOf ops).take k ++ [zero]) ↔
        SafeLate Arr.dest (Arr.initCstr arr garb) ops) ∧
      (Arr.finishCstr zero s = none ↔ ¬ SafeLate Arr.dest (Arr.initCstr arr garb) ops) := by
  by_cases hs : SafeLate Arr.dest (Arr.initCstr arr garb) ops
  · have hold := cstr_prefix_partial zero arr garb hN hg ops hok hs
    obtain ⟨s, s', k, tr, e1, e2, e3, e4, e5, e6, _⟩ := hold
    -- the array before the terminator was stored
    have h0 : Arr.Inv arr.length (arr.length - 1) False False (Arr.initCstr arr garb) [] :=
      Or.inl ⟨rfl, rfl, rfl, by simp, by simp [Arr.initCstr], rfl, hg, by simp⟩
    obtain ⟨q, e, i⟩ := Arr.inv_ops ops h0 hok (fun f => f.elim) (fun f => f.elim) hs
    rw [e1] at e
    cases e
    simp only [List.nil_append] at i
    have hk : s.arr.take k = (textOf ops).take k ∧ s.arr.length = arr.length := by
      rcases i with ⟨h1, h2, h3, h4, h5, h6, h7, h8⟩ | ⟨A, j, ⟨b1, b2, b3, b4, b5, b6⟩, c1, c2, c3, c4, c5, _⟩
      · have hkk : Loc.user k = Loc.user (textOf ops).length := by
          unfold Arr.finishCstr at e2
          simp only [h1, if_true, h2] at e2
          rw [Option.map_eq_some_iff] at e2
          obtain ⟨w, hw, hw2⟩ := e2
          cases w
          unfold Arr.assign at hw
          simp only [Option.map_eq_some_iff] at hw
          obtain ⟨a, _, hw⟩ := hw
          cases hw
          simp at hw2
          simp [hw2.2.1]
        cases hkk
        exact ⟨by rw [h8, List.take_length], h6⟩
      · have hkk : Loc.user k = Loc.user j := by
          unfold Arr.finishCstr at e2
          simp only [b1, Bool.false_eq_true, if_false, b5] at e2
          rw [Option.map_eq_some_iff] at e2
          obtain ⟨w, hw, hw2⟩ := e2
          cases w
          unfold Arr.assign at hw
          simp only [Option.map_eq_some_iff] at hw
          obtain ⟨a, _, hw⟩ := hw
          cases hw
          simp at hw2
          simp [← hw2.2.1, b5]
        cases hkk
        exact ⟨by rw [b6]; exact c5, by rw [b6]; exact c1⟩
    exact ⟨s, k, e1, hk.2, e4, e5, hk.1, iff_of_true ⟨s', tr, e2, e6⟩ hs, iff_of_false (by rw [e2]; simp) (not_not.mpr hs)⟩
  · have h0 : Arr.Inv arr.length (arr.length - 1) False False (Arr.initCstr arr garb) [] :=
      Or.inl ⟨rfl, rfl, rfl, by simp, by simp [Arr.initCstr], rfl, hg, by simp⟩
    obtain ⟨s, A, k, e, ⟨l1, l2, l3, l4, l5, l6⟩, h3, h4, h5, h6⟩ := Arr.lost_of_unsafe ops h0 hok hs
    rw [List.nil_append] at h5 h6
    have hf : Arr.finishCstr zero s = none := by
      simp [Arr.finishCstr, l1, Arr.assign, l5, storeAt, l4]
    refine ⟨s, k, e, by rw [l6]; exact h3, by omega, h5, by rw [l6]; exact h6, iff_of_false ?_ hs, iff_of_true hf hs⟩
    rintro ⟨s', tr, e', _⟩
    rw [hf] at e'
    cases e'

/-- C03, exactly: the same without a terminator; the pointer that `finish()` returns is in the range if and only if the history is safe in that sense. -/
theorem array_end_iff (arr garb : List α) (hg : garb.length = 64) (ops : List (Op α)) (hok : ∀ op ∈ ops, op.Ok) :
    ∃ s k, runOps Arr.dest (Arr.initArray arr garb) ops = some s ∧ s.arr.length = arr.length ∧ k ≤ arr.length ∧ k ≤ (textOf ops).length ∧
      s.arr.take k = (textOf ops).take k ∧
      ((Arr.finishArray s).1 = .user k ↔ SafeLate Arr.dest (Arr.initArray arr garb) ops) ∧
      ((Arr.finishArray s).1 = .garbage 64 ↔ ¬ SafeLate Arr.dest (Arr.initArray arr garb) ops) := by
  by_cases hs : SafeLate Arr.dest (Arr.initArray arr garb) ops
  · obtain ⟨s, k, tr, e1, e2, e3, e4, e5, e6, _⟩ := array_prefix_partial arr garb hg ops hok hs
    exact ⟨s, k, e1, e3, e4, e5, e6, iff_of_true (by rw [e2]) hs, iff_of_false (by rw [e2]; simp) (not_not.mpr hs)⟩
  · have h0 : Arr.Inv arr.length arr.length False False (Arr.initArray arr garb) [] :=
      Or.inl ⟨rfl, rfl, rfl, by simp, by simp [Arr.initArray], rfl, hg, by simp⟩
    obtain ⟨s, A, k, e, ⟨l1, l2, l3, l4, l5, l6⟩, h3, h4, h5, h6⟩ := Arr.lost_of_unsafe ops h0 hok hs
    rw [List.nil_append] at h5 h6
    have hf : (Arr.finishArray s).1 = .garbage 64 := by simp [Arr.finishArray, l1, l5]
    exact ⟨s, k, e, by rw [l6]; exact h3, h4, h5, by rw [l6]; exact h6, iff_of_false (by rw [hf]; simp) hs, iff_of_true hf hs⟩

namespace Writer

/-- the stream takes nothing in the call after one in which it did not take everything -/
def Quits (acc : World α) : Prop :=
  ∀ i f xs ys, acc i f xs < xs.length → acc (i + 1) (f ++ xs.take (acc i f xs)) ys = 0

/-- streambuf writer in front of such a stream -/
def RepQuits (s : Writer α) (t : List α) : Prop :=
  Wf s ∧ (s.good = true → s.file ++ s.buf.take s.ptr = t) ∧ (s.good = false → s.file <+: t ∧ s.file.length < t.length)

theorem lawfulQuitsAll (acc : World α) (hw : Quits acc) : LawfulAll (streambuf acc) RepQuits where
  poke := by
    rintro s t xs ⟨h1, h2, h3⟩ hx
    obtain ⟨b, e, hl, ht, hw⟩ := poke_wf h1 hx
    refine ⟨_, e, ⟨hw, fun g => ?_, fun g => ?_⟩, by simp only [hl]; omega, rfl⟩
    · simp only; rw [ht, ← List.append_assoc, h2 g]
    · obtain ⟨p, q⟩ := h3 g
      exact ⟨p.trans (List.prefix_append _ _), by simp; omega⟩
  recycle := by
    rintro s t ⟨⟨k1, k2, k3⟩, h2, h3⟩
    obtain ⟨buf, ptr, good, count, file, calls⟩ := s
    simp only at k1 k2 k3 h2 h3
    cases good with
    | false =>
      exact ⟨⟨⟨k1, Nat.zero_le _, k3⟩, (fun g => by cases g), h3⟩, (by simpa [recycle] using k1), fun g => g⟩
    | true =>
      obtain ⟨n, hn, e⟩ := recycle_good acc buf file ptr count calls
      have hl : (buf.take ptr).length = ptr := by simp; omega
      have e' : (streambuf acc).recycle ⟨buf, ptr, true, count, file, calls⟩ = _ := e
      rw [e']
      have ht := h2 rfl
      refine ⟨⟨⟨k1, Nat.zero_le _, ?_⟩, fun g => ?_, fun g => ?_⟩, by simpa using k1, fun _ => rfl⟩
      · simp; omega
      · simp only [beq_iff_eq] at g
        rw [List.take_of_length_le (l := buf.take ptr) (by omega)]
        simp [ht]
      · simp only [beq_eq_false_iff_ne, ne_eq] at g
        rw [← ht]
        exact ⟨(List.prefix_append_right_inj file).mpr (List.take_prefix _ _), by simp; omega⟩
  doWrite := by
    rintro s t xs ⟨⟨k1, k2, k3⟩, h2, h3⟩ _
    obtain ⟨buf, ptr, good, count, file, calls⟩ := s
    simp only at k1 k2 k3 h2 h3
    refine ⟨_, rfl, ?_⟩
    cases good with
    | false =>
      obtain ⟨p, q⟩ := h3 rfl
      exact ⟨⟨⟨k1, Nat.zero_le _, k3⟩, (fun g => by cases g),
        fun _ => ⟨p.trans (List.prefix_append _ _), by simp [doWriteSb]; omega⟩⟩, fun g => g⟩
    | true =>
      obtain ⟨n, m, hn, hm, e⟩ := doWriteSb_good acc buf file xs ptr count calls
      have hl : (buf.take ptr).length = ptr := by simp; omega
      have ht := h2 rfl
      rw [e]
      refine ⟨⟨⟨k1, Nat.zero_le _, ?_⟩, fun g => ?_, fun g => ?_⟩, fun _ => rfl⟩
      · simp; omega
      · simp only [beq_iff_eq] at g
        rw [List.take_of_length_le (l := buf.take ptr) (by omega), List.take_of_length_le (l := xs) (by omega)]
        simp [← ht]
      · simp only [beq_eq_false_iff_ne, ne_eq] at g
        refine ⟨?_, by rw [← ht]; simp; omega⟩
        show file ++ (buf.take ptr).take n ++ xs.take m <+: _
        rw [← ht]
        by_cases hc : n = ptr
        · rw [List.take_of_length_le (l := buf.take ptr) (by omega)]
          exact (List.prefix_append_right_inj _).mpr (List.take_prefix _ _)
        · have hq : acc calls file (buf.take ptr) < (buf.take ptr).length := by omega
          have h0 := hw _ _ _ xs hq
          have hna : n = acc calls file (buf.take ptr) := by omega
          rw [← hna] at h0
          have hm0 : m = 0 := by omega
          rw [hm0, List.take_zero, List.append_nil, List.append_assoc]
          exact (List.prefix_append_right_inj file).mpr ((List.take_prefix _ _).trans (List.prefix_append _ _))
  bad := by
    rintro s t xs ⟨h1, h2, h3⟩ hg
    have hg' : s.good = false := hg
    obtain ⟨p, q⟩ := h3 hg'
    exact ⟨h1, by simp [hg'], fun _ => ⟨p.trans (List.prefix_append _ _), by simp; omega⟩⟩

end Writer

/-- C06 (part): for every stream that, after a call in which it did not take all it was given, takes nothing in the next one, and for every history: the
stream receives a prefix of the text, the count is its length, and success is reported if and only if it is the whole text. Missing: streams that go on
taking characters after a short write, for which it is false (`streambuf_gap_wrong`). -/
theorem streambuf_prefix_partial (acc : World α) (hw : Writer.Quits acc) (junk : List α) (hj : 64 ≤ junk.length) (ops : List (Op α))
    (hok : ∀ op ∈ ops, op.Ok) :
    ∃ s, runOps (Writer.streambuf acc) (Writer.init junk) ops = some s ∧
      let r := Writer.finishSb acc s
      r.1.file <+: textOf ops ∧ r.2.1 = r.1.file.length ∧ (r.2.2 = true ↔ r.1.file = textOf ops) := by
  obtain ⟨s, e, r, _⟩ := (Writer.lawfulQuitsAll acc hw).prints_ops ops hok (Writer.init junk) []
    ⟨⟨hj, by simp [Writer.init], rfl⟩, by simp [Writer.init], by simp [Writer.init]⟩
  refine ⟨s, e, ?_⟩
  simp only [List.nil_append] at r
  obtain ⟨⟨k1, k2, k3⟩, h2, h3⟩ := r
  obtain ⟨buf, ptr, good, count, file, calls⟩ := s
  simp only at k1 k2 k3 h2 h3
  cases good with
  | false =>
    obtain ⟨p, q⟩ := h3 rfl
    refine ⟨p, k3, iff_of_false (by simp [Writer.finishSb]) fun h => ?_⟩
    have h : file = textOf ops := h
    rw [h] at q
    omega
  | true =>
    have ht := h2 rfl
    have hl : (buf.take ptr).length = ptr := by simp; omega
    obtain ⟨n, hn⟩ : ∃ n, n = min (acc calls file (buf.take ptr)) (buf.take ptr).length := ⟨_, rfl⟩
    have ef : Writer.finishSb acc ⟨buf, ptr, true, count, file, calls⟩ =
      (⟨buf, 0, false, count + n, file ++ (buf.take ptr).take n, calls + 1⟩, count + n, n == ptr) := by
      rw [hn]; rfl
    rw [ef]
    refine ⟨?_, by simp; omega, ?_⟩
    · rw [← ht]
      exact (List.prefix_append_right_inj file).mpr (List.take_prefix _ _)
    · constructor
      · intro h
        simp at h
        simp only
        rw [List.take_of_length_le (l := buf.take ptr) (by omega), ht]
      · intro h
        have := congrArg List.length h
        rw [← ht] at this
        simp at this
        simp
        omega

/-- C06, exactly, when a write that does not fit is sent behind one that is still buffered: the delivered text is a prefix if and only if the buffered part
was taken entirely, or what was taken of the second is what was left of the first. -/
theorem streambuf_gap_iff (acc : World α) (junk : List α) (hj : 64 ≤ junk.length) (xs ys : List α) (hx : xs.length ≤ junk.length) (h0 : 0 < xs.length)
    (hy : junk.length - xs.length < ys.length) :
    ∃ s n m, runOps (Writer.streambuf acc) (Writer.init junk) [Op.write xs, Op.write ys] = some s ∧
      n = min (acc 0 [] xs) xs.length ∧ m = min (acc 1 (xs.take n) ys) ys.length ∧ s.file = xs.take n ++ ys.take m ∧
      (s.file <+: xs ++ ys ↔ n = xs.length ∨ ys.take m <+: xs.drop n ++ ys) := by
  obtain ⟨b, eb, hb, htb, hwb⟩ := Writer.poke_wf (s := Writer.init junk) ⟨hj, by simp [Writer.init], rfl⟩
    (by simpa [Writer.init, Writer.streambuf] using hx : xs.length ≤ (Writer.init junk).buf.length - (Writer.init junk).ptr)
  have htake : b.take xs.length = xs := by
    simpa [Writer.init] using htb
  have e1 : (Op.write xs).run (Writer.streambuf acc) (Writer.init junk) = some ⟨b, xs.length, true, 0, [], 0⟩ := by
    simp only [Op.run, Dest.write]
    rw [if_pos h0, if_pos (by simpa [Writer.init] using hx)]
    rw [eb]
    simp [Writer.init]
  obtain ⟨n, m, hn, hm, e2⟩ := Writer.doWriteSb_good acc b [] ys xs.length 0 0
  rw [htake] at hn hm e2
  rw [List.nil_append] at hm
  have hlb : b.length = junk.length := by simpa [Writer.init] using hb
  have e3 : (Op.write ys).run (Writer.streambuf acc) ⟨b, xs.length, true, 0, [], 0⟩ =
      some (Writer.doWriteSb acc ⟨b, xs.length, true, 0, [], 0⟩ ys) := by
    simp only [Op.run, Dest.write]
    rw [if_pos (by omega), if_neg (by show ¬ ys.length ≤ b.length - xs.length; omega)]
  refine ⟨Writer.doWriteSb acc ⟨b, xs.length, true, 0, [], 0⟩ ys, n, m, by simp only [runOps, e1, Option.bind_some, e3], hn, hm, by rw [e2]; rfl, ?_⟩
  rw [e2]
  show [] ++ xs.take n ++ ys.take m <+: xs ++ ys ↔ _
  rw [List.nil_append]
  have hsplit : xs ++ ys = xs.take n ++ (xs.drop n ++ ys) := by rw [← List.append_assoc, List.take_append_drop]
  rw [hsplit, List.prefix_append_right_inj]
  constructor
  · exact .inr
  · rintro (h | h)
    · rw [h, List.drop_length, List.nil_append]
      exact List.take_prefix _ _
    · exact h

/-- the hypotheses can be met -/
example : ∃ acc : World Nat, Writer.Quits acc ∧ acc 0 [] [1, 2, 3] = 2 := by
  refine ⟨fun i _ _ => if i = 0 then 2 else 0, ?_, rfl⟩
  intro i f xs ys _
  simp
example : (∀ op ∈ [Op.write (List.replicate 10 7), Op.write (List.replicate 65 8)], op.Ok) ∧
    ¬ SafeLate Arr.dest (Arr.initCstr (List.replicate 4 1) (List.replicate 64 0)) [Op.write (List.replicate 10 7), Op.write (List.replicate 65 8)] := by
  refine ⟨by simp [Op.Ok], fun h => ?_⟩
  have := (h.2 _ rfl).1 _ rfl
  revert this
  decide
example : (3 : Nat) ≤ 64 ∧ 64 - 3 < (List.replicate 70 (0 : Nat)).length := by decide

end Strf.Dest

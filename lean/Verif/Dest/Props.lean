import Verif.Dest.StringsLemmas
import Verif.Dest.ArraysLemmas
import Verif.Dest.StreambufLemmas
/-
C01–C09: what destinations do with any history of output operations.
A history is a list of `Op`s (write / put / fill / ensure-and-store / flush), `textOf ops` its text.
-/
namespace Strf.Dest
variable {α : Type}

/-! ### C01 -/

/-- C01 (string_maker): for every history, no undefined behaviour, and `finish()` returns exactly the text. -/
theorem string_maker_concat (junk : List α) (hj : junk.length = 64) (ops : List (Op α)) (hok : ∀ op ∈ ops, op.Ok) :
    ∃ s, runOps Maker.dest (Maker.init junk) ops = some s ∧ (Maker.finishE true s).2 = some (textOf ops) := by
  obtain ⟨s, e, r, _⟩ := Maker.lawfulAll.prints_ops ops hok (Maker.init junk) [] ⟨hj, by simp [Maker.init], rfl, rfl, rfl⟩
  refine ⟨s, e, ?_⟩
  obtain ⟨_, _, hg, hi, ht⟩ := r
  simp only [Maker.finishE, hg, if_true]
  cases hs : s.str with
  | none => rw [hs] at hi ht; simp at hi; simp [hi]; simpa using ht
  | some x => rw [hs] at hi ht; simp at hi; simp [hi]; simpa using ht

/-- C01 (string_appender): for every history, `finish()` (or the destructor, if `finish()` is not called) leaves
the target string equal to what it was followed by the text. -/
theorem string_appender_concat (start junk : List α) (hj : junk.length = 64) (ops : List (Op α))
    (hok : ∀ op ∈ ops, op.Ok) :
    ∃ s, runOps Appender.dest (Appender.init start junk) ops = some s ∧
      (Appender.finishE true s).1.str = start ++ textOf ops ∧
      (Appender.destroyE true s).str = start ++ textOf ops ∧
      (Appender.destroyE true (Appender.finishE true s).1).str = start ++ textOf ops := by
  obtain ⟨s, e, r, _⟩ := (Appender.lawfulAll start).prints_ops ops hok (Appender.init start junk) []
    ⟨hj, by simp [Appender.init], rfl, by simp [Appender.init]⟩
  obtain ⟨_, _, hg, ht⟩ := r
  refine ⟨s, e, ?_⟩
  simp only [List.nil_append] at ht
  simp [Appender.finishE, Appender.destroyE, hg, ht]

/-- C01, C45 (sized_string_maker): for every reserved size and every history, `finish()` returns exactly the
text. -/
theorem sized_string_maker_concat (zero : α) (count : Nat) (ops : List (Op α)) (hok : ∀ op ∈ ops, op.Ok) :
    ∃ s, runOps (Sized.dest zero) (Sized.init zero count) ops = some s ∧ Sized.finish s = textOf ops := by
  obtain ⟨s, e, r, _⟩ := (Sized.lawfulAll zero).prints_ops ops hok (Sized.init zero count) []
    ⟨by simp [Sized.init], by simp [Sized.init], rfl, by simp [Sized.init]⟩
  exact ⟨s, e, by simpa [Sized.finish] using r.2.2.2⟩

/-- C45: the result does not depend on whether, and how much, memory was reserved: `string_maker` (no_reserve) and
`sized_string_maker(n)` (reserve / reserve_calc) return the same string for the same history, for every `n`. -/
theorem reserve_irrelevant (junk : List α) (hj : junk.length = 64) (zero : α) (n : Nat) (ops : List (Op α))
    (hok : ∀ op ∈ ops, op.Ok) :
    ∃ s s', runOps Maker.dest (Maker.init junk) ops = some s ∧
      runOps (Sized.dest zero) (Sized.init zero n) ops = some s' ∧
      (Maker.finishE true s).2 = some (Sized.finish s') := by
  obtain ⟨s, e, h⟩ := string_maker_concat junk hj ops hok
  obtain ⟨s', e', h'⟩ := sized_string_maker_concat zero n ops hok
  exact ⟨s, s', e, e', by rw [h, h']⟩

example : (∀ op ∈ [Op.write [1,2,3], Op.fill 100 7, Op.raw 20 [4,5], Op.flush, Op.put 9], (op : Op Nat).Ok) ∧
    (textOf [Op.write [1,2,3], Op.fill 100 7, Op.raw 20 [4,5], Op.flush, Op.put 9]).length = 106 := by
  constructor
  · simp [Op.Ok]
  · decide

/-! ### C02, C03 -/

/-- C02 (part): for every array size ≥ 1 and every history that never asks the already truncated destination for a
`write` longer than its remaining garbage space, the array ends up holding a prefix of the text and the terminating
zero, the returned pointer addresses that zero, inside the array; `truncated = false` only if the whole text is there;
if every operation uses the space it asks for, `truncated` iff the text does not fit in `N-1`; and if the operations
are plain writes, puts and fills, the longest prefix that fits is kept. Missing: the excluded histories, for which
the claim is false (`cstr_late_write_wrong`). -/
theorem cstr_prefix_partial (zero : α) (arr garb : List α) (hN : 1 ≤ arr.length) (hg : garb.length = 64)
    (ops : List (Op α)) (hok : ∀ op ∈ ops, op.Ok) (hlate : SafeLate Arr.dest (Arr.initCstr arr garb) ops) :
    ∃ s s' k truncated, runOps Arr.dest (Arr.initCstr arr garb) ops = some s ∧
      Arr.finishCstr zero s = some (s', .user k, truncated) ∧
      s'.arr.length = arr.length ∧ k < arr.length ∧ k ≤ (textOf ops).length ∧
      s'.arr.take (k + 1) = (textOf ops).take k ++ [zero] ∧
      (truncated = false → k = (textOf ops).length) ∧
      ((∀ op ∈ ops, op.Exact) → (truncated = true ↔ arr.length - 1 < (textOf ops).length)) ∧
      ((∀ op ∈ ops, op.Plain) → k = min (textOf ops).length (arr.length - 1)) := by
  have h0 : Arr.Inv arr.length (arr.length - 1) (∀ op ∈ ops, op.Plain) (∀ op ∈ ops, op.Exact)
      (Arr.initCstr arr garb) [] :=
    Or.inl ⟨rfl, rfl, rfl, by simp, by simp [Arr.initCstr], rfl, hg, by simp⟩
  obtain ⟨s, e, i⟩ := Arr.inv_ops ops h0 hok id id hlate
  simp only [List.nil_append] at i
  rcases i with ⟨h1, h2, h3, h4, h5, h6, h7, h8⟩ | ⟨A, k, ⟨b1, ⟨g, hg', b2⟩, b3, b4, b5, b6⟩, c1, c2, c3, c4, c5, c6, c7⟩
  · obtain ⟨a, ea, la, ta, _⟩ := storeAt_some (buf := s.arr) (i := (textOf ops).length) (xs := [zero])
      (by simp; omega)
    refine ⟨s, { s with arr := a, ptr := .garbage 0, end_ := .garbage 64, it := s.ptr, good := false },
      (textOf ops).length, false, e, ?_, by simp [la, h6], by omega, by simp, ?_, fun _ => rfl, ?_, ?_⟩
    · simp [Arr.finishCstr, h1, Arr.assign, h2, ea]
    · simp only [List.length_singleton] at ta
      simp only [ta, h8, List.take_length]
    · simp; omega
    · intro _; omega
  · obtain ⟨a, ea, la, ta, _⟩ := storeAt_some (buf := s.arr) (i := k) (xs := [zero]) (by rw [b6]; simp; omega)
    refine ⟨s, { s with arr := a, ptr := .garbage 0, end_ := .garbage 64 },
      k, true, e, ?_, by simp [la, b6, c1], by omega, c4, ?_, by simp, ?_, ?_⟩
    · simp [Arr.finishCstr, b1, Arr.assign, b5, ea]
    · simp only [List.length_singleton] at ta
      simp only [ta, b6, c5]
    · intro h; simp [c7 h]
    · intro h; have := c6 h; omega

/-- C02 is false of the code: after truncation, a `write` longer than the garbage space makes `finish()` store the
terminator one past the garbage buffer (undefined behaviour; the user's array is left unterminated). Here the array
has 4 elements; the history writes 10 and then 65 characters. -/
theorem cstr_late_write_wrong :
    ∃ s, runOps Arr.dest (Arr.initCstr (List.replicate 4 1) (List.replicate 64 0))
        [Op.write (List.replicate 10 7), Op.write (List.replicate 65 8)] = some s ∧
      s.arr = [7, 7, 7, 1] ∧ Arr.finishCstr 0 s = none := by
  refine ⟨_, rfl, ?_, ?_⟩ <;> decide

example : ∃ ops : List (Op Nat), (∀ op ∈ ops, op.Ok) ∧
    SafeLate Arr.dest (Arr.initCstr (List.replicate 4 1) (List.replicate 64 0)) ops ∧
    (textOf ops).length = 13 := by
  refine ⟨[Op.write (List.replicate 10 7), Op.put 1, Op.write [2, 3]], by simp [Op.Ok], ?_, by decide⟩
  refine ⟨fun xs _ => Or.inl rfl, fun s' e => ?_⟩
  have e1 : s' = _ := (Option.some.inj e).symm
  subst e1
  refine ⟨fun xs h => by simp at h, fun s'' e => ?_⟩
  have e2 : s'' = _ := (Option.some.inj e).symm
  subst e2
  exact ⟨fun xs h => Or.inr (by simp at h; subst h; decide), fun _ _ => trivial⟩

/-- C03 (part): the same for `array_destination` (no terminator; the whole range may be used). Missing: as for C02,
histories with a late long `write` (`array_late_write_wrong`). -/
theorem array_prefix_partial (arr garb : List α) (hg : garb.length = 64)
    (ops : List (Op α)) (hok : ∀ op ∈ ops, op.Ok) (hlate : SafeLate Arr.dest (Arr.initArray arr garb) ops) :
    ∃ s k truncated, runOps Arr.dest (Arr.initArray arr garb) ops = some s ∧
      Arr.finishArray s = (.user k, truncated) ∧
      s.arr.length = arr.length ∧ k ≤ arr.length ∧ k ≤ (textOf ops).length ∧
      s.arr.take k = (textOf ops).take k ∧
      (truncated = false → k = (textOf ops).length) ∧
      ((∀ op ∈ ops, op.Exact) → (truncated = true ↔ arr.length < (textOf ops).length)) ∧
      ((∀ op ∈ ops, op.Plain) → k = min (textOf ops).length arr.length) := by
  have h0 : Arr.Inv arr.length arr.length (∀ op ∈ ops, op.Plain) (∀ op ∈ ops, op.Exact)
      (Arr.initArray arr garb) [] :=
    Or.inl ⟨rfl, rfl, rfl, by simp, by simp [Arr.initArray], rfl, hg, by simp⟩
  obtain ⟨s, e, i⟩ := Arr.inv_ops ops h0 hok id id hlate
  simp only [List.nil_append] at i
  rcases i with ⟨h1, h2, h3, h4, h5, h6, h7, h8⟩ | ⟨A, k, ⟨b1, ⟨g, hg', b2⟩, b3, b4, b5, b6⟩, c1, c2, c3, c4, c5, c6, c7⟩
  · refine ⟨s, (textOf ops).length, false, e, ?_, h6, by omega, by simp, ?_, fun _ => rfl, ?_, ?_⟩
    · simp [Arr.finishArray, h1, h2]
    · rw [h8, List.take_length]
    · simp; omega
    · intro _; omega
  · refine ⟨s, k, true, e, ?_, by rw [b6]; exact c1, by omega, c4, by rw [b6]; exact c5, by simp, ?_, ?_⟩
    · simp [Arr.finishArray, b1, b5]
    · intro h; simp [c7 h]
    · intro h; have := c6 h; omega

/-- C03 is false of the code: after a late long `write`, the pointer returned by `finish()` is not in the user's
range. -/
theorem array_late_write_wrong :
    ∃ s, runOps Arr.dest (Arr.initArray (List.replicate 4 1) (List.replicate 64 0))
        [Op.write (List.replicate 10 7), Op.write (List.replicate 65 8)] = some s ∧
      Arr.finishArray s = (.garbage 64, true) := by
  refine ⟨_, rfl, ?_⟩; decide

/-- A history with at most one `write` after which only puts, fills and exact stores follow is always safe: in
particular any history whose only `write` is the first operation satisfies `SafeLate`. -/
theorem safeLate_of_no_write {σ : Type} (D : Dest α σ) (ops : List (Op α))
    (h : ∀ op ∈ ops, ∀ xs, op ≠ .write xs) (s : σ) : SafeLate D s ops := by
  induction ops generalizing s with
  | nil => trivial
  | cons op ops ih =>
    exact ⟨fun xs e => absurd e (h op (by simp) xs), fun s' _ => ih (fun o ho => h o (by simp [ho])) s'⟩

/-! ### C04 -/

/-- C04: every history runs on a discarder without undefined behaviour; it stays bad; and after a `recycle` it
offers 64 units. -/
theorem discarder_total (garb : List α) (hg : garb.length = 64) (ops : List (Op α)) (hok : ∀ op ∈ ops, op.Ok) :
    ∃ s, runOps Discarder.dest (Discarder.init garb) ops = some s ∧ Discarder.dest.good s = false ∧
      s.garb.length = 64 ∧ s.ptr ≤ 64 ∧ Discarder.dest.space (Discarder.dest.recycle s) = 64 := by
  obtain ⟨s, e, r, _⟩ := Discarder.lawfulAll.prints_ops ops hok (Discarder.init garb) [] ⟨hg, by simp [Discarder.init]⟩
  exact ⟨s, e, rfl, r.1, r.2, rfl⟩

/-! ### C05 -/

/-- C05: for every behaviour of the file and every history, `finish()` reports exactly how many characters the file
holds, the file holds a prefix of the text, and `success` is true iff the file holds the whole text. -/
theorem cfile_prefix (acc : World α) (junk : List α) (hj : 64 ≤ junk.length) (ops : List (Op α))
    (hok : ∀ op ∈ ops, op.Ok) :
    ∃ s, runOps (Writer.cfile acc) (Writer.init junk) ops = some s ∧
      let r := Writer.finish acc s
      r.1.file <+: textOf ops ∧ r.2.1 = r.1.file.length ∧ (r.2.2 = true ↔ r.1.file = textOf ops) ∧
      (Writer.destroy acc r.1).file = r.1.file ∧ (Writer.destroy acc s).file <+: textOf ops := by
  obtain ⟨s, e, r, _⟩ := (Writer.lawfulAll acc).prints_ops ops hok (Writer.init junk) []
    ⟨⟨hj, by simp [Writer.init], rfl⟩, by simp [Writer.init], by simp [Writer.init]⟩
  refine ⟨s, e, ?_⟩
  simp only [List.nil_append] at r
  obtain ⟨⟨k1, k2, k3⟩, h2, h3⟩ := r
  obtain ⟨buf, ptr, good, count, file, calls⟩ := s
  simp only at k1 k2 k3 h2 h3
  cases good with
  | false =>
    obtain ⟨p, q⟩ := h3 rfl
    refine ⟨p, k3, ?_, rfl, p⟩
    simp only [Writer.finish]
    constructor
    · intro h; cases h
    · intro h; simp only [Bool.false_eq_true, if_false] at h; rw [h] at q; omega
  | true =>
    have ht := h2 rfl
    have hl : (buf.take ptr).length = ptr := by simp; omega
    obtain ⟨n, hn⟩ : ∃ n, n = min (acc calls file (buf.take ptr)) (buf.take ptr).length := ⟨_, rfl⟩
    have ef : Writer.finish acc ⟨buf, ptr, true, count, file, calls⟩ =
      (⟨buf, ptr, false, count + n, file ++ (buf.take ptr).take n, calls + 1⟩, count + n, ptr == n) := by
      rw [hn]; rfl
    have ed : (Writer.destroy acc ⟨buf, ptr, true, count, file, calls⟩).file = file ++ (buf.take ptr).take n := by
      rw [hn]; rfl
    rw [ef, ed]
    have hp : file ++ (buf.take ptr).take n <+: textOf ops := by
      rw [← ht]; exact (List.prefix_append_right_inj file).mpr (List.take_prefix _ _)
    refine ⟨hp, by simp; omega, ?_, rfl, hp⟩
    simp only [beq_iff_eq]
    constructor
    · intro h
      rw [List.take_of_length_le (l := buf.take ptr) (by omega), ht]
    · intro h
      have h2 := congrArg List.length h
      rw [← ht] at h2
      simp at h2; omega

/-- C05: once a write to the file has come up short (the writer is bad), no history makes any further call on the
file, nor does `finish()` or the destructor. -/
theorem cfile_failed_sends_nothing (acc : World α) (s : Writer α) (hs : Writer.Wf s) (hbad : s.good = false)
    (ops : List (Op α)) (hok : ∀ op ∈ ops, op.Ok) :
    ∃ s', runOps (Writer.cfile acc) s ops = some s' ∧ s'.calls = s.calls ∧ s'.file = s.file ∧
      (Writer.finish acc s').1.calls = s.calls ∧ (Writer.finish acc s').1.file = s.file ∧
      (Writer.destroy acc s').calls = s.calls ∧ (Writer.finish acc s').2.2 = false := by
  obtain ⟨s', e, ⟨r1, r2, r3, r4⟩, _⟩ := (Writer.lawfulFrozen acc s.file s.calls).prints_ops ops hok s []
    ⟨hs, hbad, rfl, rfl⟩
  refine ⟨s', e, r4, r3, ?_, ?_, ?_, ?_⟩ <;> simp [Writer.finish, Writer.destroy, r2, r3, r4]

/-- C05 (wide files): the loop over `fputwc` returns the number of leading characters that were accepted: all of
those were, and the next one, if any, was not. -/
theorem wideWrite_spec (ok : Nat → α → Bool) (k : Nat) (cs : List α) :
    wideWrite ok k cs ≤ cs.length ∧ (∀ i (h : i < cs.length), i < wideWrite ok k cs → ok (k + i) cs[i] = true) ∧
      (∀ h : wideWrite ok k cs < cs.length, ok (k + wideWrite ok k cs) cs[wideWrite ok k cs] = false) := by
  induction cs generalizing k with
  | nil => simp [wideWrite]
  | cons c cs ih =>
    obtain ⟨h1, h2, h3⟩ := ih (k + 1)
    unfold wideWrite
    by_cases hc : ok k c = true
    · simp only [hc, if_true]
      refine ⟨by simp; omega, ?_, ?_⟩
      · intro i hi hlt
        cases i with
        | zero => simpa using hc
        | succ i =>
          have := h2 i (by simpa using hi) (by omega)
          simpa [Nat.add_assoc, Nat.add_comm 1] using this
      · intro h
        have := h3 (by simpa using h)
        simpa [Nat.add_assoc, Nat.add_comm 1] using this
    · simp only [hc]
      refine ⟨by simp, by intro i _ h; simp at h, ?_⟩
      intro _; simpa using hc

example : ∃ (acc : World Nat) (s : Writer Nat), Writer.Wf s ∧ s.good = false ∧ s.file = [1, 2] ∧
    runOps (Writer.cfile acc) (Writer.init (List.replicate 64 0)) [Op.write [1,2,3,4], Op.flush] = some s :=
  ⟨fun _ _ _ => 2, _, ⟨by decide, by decide, by decide⟩, by decide, by decide, rfl⟩

/-! ### C06 -/

/-- C06 (part): for every behaviour of the stream and every history, `finish()` reports exactly how many characters
were delivered, and success iff all of them were; the delivered characters are then the text. Missing: that a failed
delivery is a prefix of the text, which is false (`streambuf_gap_wrong`). -/
theorem streambuf_count_partial (acc : World α) (junk : List α) (hj : 64 ≤ junk.length) (ops : List (Op α))
    (hok : ∀ op ∈ ops, op.Ok) :
    ∃ s, runOps (Writer.streambuf acc) (Writer.init junk) ops = some s ∧
      let r := Writer.finishSb acc s
      r.2.1 = r.1.file.length ∧ (r.2.2 = true → r.1.file = textOf ops) ∧
      (r.2.2 = false → r.1.file.length < (textOf ops).length) := by
  obtain ⟨s, e, r, _⟩ := (Writer.lawfulSbAll acc).prints_ops ops hok (Writer.init junk) []
    ⟨⟨hj, by simp [Writer.init], rfl⟩, by simp [Writer.init], by simp [Writer.init]⟩
  refine ⟨s, e, ?_⟩
  simp only [List.nil_append] at r
  obtain ⟨⟨k1, k2, k3⟩, h2, h3⟩ := r
  obtain ⟨buf, ptr, good, count, file, calls⟩ := s
  simp only at k1 k2 k3 h2 h3
  cases good with
  | false => exact ⟨k3, (fun h => by cases h), fun _ => h3 rfl⟩
  | true =>
    have ht := h2 rfl
    have hl : (buf.take ptr).length = ptr := by simp; omega
    obtain ⟨n, hn⟩ : ∃ n, n = min (acc calls file (buf.take ptr)) (buf.take ptr).length := ⟨_, rfl⟩
    have ef : Writer.finishSb acc ⟨buf, ptr, true, count, file, calls⟩ =
      (⟨buf, 0, false, count + n, file ++ (buf.take ptr).take n, calls + 1⟩, count + n, n == ptr) := by
      rw [hn]; rfl
    rw [ef]
    refine ⟨by simp; omega, fun h => ?_, fun h => ?_⟩
    · simp at h
      simp only
      rw [List.take_of_length_le (l := buf.take ptr) (by omega), ht]
    · simp at h
      rw [← ht]; simp; omega

/-- C06 (part): for a stream that accepts `K` characters in all and then nothing (a full device or fixed buffer), for
every history the stream receives exactly the first `K` characters of the text, the count is exact and success is
reported iff the text has at most `K` characters. -/
theorem streambuf_capacity_partial (acc : World α) (K : Nat) (hw : Writer.CapWorld acc K) (junk : List α)
    (hj : 64 ≤ junk.length) (ops : List (Op α)) (hok : ∀ op ∈ ops, op.Ok) :
    ∃ s, runOps (Writer.streambuf acc) (Writer.init junk) ops = some s ∧
      let r := Writer.finishSb acc s
      r.1.file = (textOf ops).take K ∧ r.2.1 = r.1.file.length ∧ (r.2.2 = true ↔ (textOf ops).length ≤ K) := by
  obtain ⟨s, e, r, _⟩ := (Writer.lawfulCapAll acc K hw).prints_ops ops hok (Writer.init junk) []
    ⟨⟨hj, by simp [Writer.init], rfl⟩, by simp [Writer.init], by simp [Writer.init], by simp [Writer.init]⟩
  refine ⟨s, e, ?_⟩
  simp only [List.nil_append] at r
  obtain ⟨⟨k1, k2, k3⟩, h0, h2, h3⟩ := r
  obtain ⟨buf, ptr, good, count, file, calls⟩ := s
  simp only at k1 k2 k3 h0 h2 h3
  cases good with
  | false =>
    obtain ⟨p, q⟩ := h3 rfl
    refine ⟨p, k3, ?_⟩
    simp only [Writer.finishSb]
    constructor
    · intro h; cases h
    · intro h; omega
  | true =>
    have ht := h2 rfl
    have hl : (buf.take ptr).length = ptr := by simp; omega
    obtain ⟨n, hn⟩ : ∃ n, n = min (acc calls file (buf.take ptr)) (buf.take ptr).length := ⟨_, rfl⟩
    have ef : Writer.finishSb acc ⟨buf, ptr, true, count, file, calls⟩ =
      (⟨buf, 0, false, count + n, file ++ (buf.take ptr).take n, calls + 1⟩, count + n, n == ptr) := by
      rw [hn]; rfl
    rw [hw] at hn
    rw [ef]
    have hlen : (textOf ops).length = file.length + ptr := by rw [← ht]; simp; omega
    refine ⟨?_, by simp; omega, ?_⟩
    · rw [← ht, List.take_append, List.take_of_length_le (l := file) (by omega)]
      simp only [hn]
      congr 1
      rw [List.take_eq_take_iff]; omega
    · simp; omega

/-- C06 is false of the code: if `sputn` takes 1 of 2 buffered characters and then all of the next ones, the stream
receives characters that are not a prefix of the text. -/
theorem streambuf_gap_wrong :
    ∃ (acc : World Nat) (s : Writer Nat),
      runOps (Writer.streambuf acc) (Writer.init (List.replicate 64 0))
        [Op.write [1, 2], Op.write (List.replicate 70 3)] = some s ∧
      s.file = 1 :: List.replicate 70 3 ∧
      ¬ s.file <+: textOf [Op.write [1, 2], Op.write (List.replicate 70 3)] :=
  ⟨fun i _ _ => if i = 0 then 1 else 1000, _, rfl, by decide, by decide⟩

example : ∃ acc : World Nat, Writer.CapWorld acc 3 := ⟨fun _ f _ => 3 - f.length, fun _ _ _ => rfl⟩

/-! ### C07, C08 -/

/-- C07: on every destination that keeps the contract, from every state, `write_fill(dst, count, ch)` appends
`max(count, 0)` copies of `ch`, without undefined behaviour. -/
theorem write_fill_exact {σ : Type} {D : Dest α σ} {Rep : σ → List α → Prop} (L : Lawful D Rep) (s : σ)
    (t : List α) (h : Rep s t) (count : Int) (c : α) :
    ∃ s', writeFill D s count c = some s' ∧ Rep s' (t ++ List.replicate count.toNat c) := by
  obtain ⟨s', e, r, _⟩ := L.prints_fill (τ := true) count c s t h
  exact ⟨s', e, r⟩

/-- C08 (output layer): two destinations that keep the contract are given the same text by the same history, whatever
their buffer sizes and the space left in them: `textOf ops`. -/
theorem geometry_independent {σ τ : Type} {D : Dest α σ} {E : Dest α τ} {R : σ → List α → Prop}
    {Q : τ → List α → Prop} (L : LawfulAll D R) (M : LawfulAll E Q) (s : σ) (u : τ) (t : List α) (hs : R s t) (hu : Q u t)
    (ops : List (Op α)) (hok : ∀ op ∈ ops, op.Ok) :
    ∃ s' u', runOps D s ops = some s' ∧ runOps E u ops = some u' ∧ R s' (t ++ textOf ops) ∧ Q u' (t ++ textOf ops) := by
  obtain ⟨s', e, r, _⟩ := L.prints_ops ops hok s t hs
  obtain ⟨u', e', r', _⟩ := M.prints_ops ops hok u t hu
  exact ⟨s', u', e, e', r, r'⟩

/-- C08: copying between character types (`output_buffer_interchar_copy`) writes the converted characters, in order. -/
theorem interchar_copy_exact {β σ : Type} {D : Dest α σ} {Rep : σ → List α → Prop} (L : Lawful D Rep) (f : β → α)
    (s : σ) (t : List α) (h : Rep s t) (xs : List β) :
    ∃ s', intercharCopy D f s xs = some s' ∧ Rep s' (t ++ xs.map f) := by
  obtain ⟨s', e, r, _⟩ := L.prints_interchar (τ := true) f xs s t h
  exact ⟨s', e, r⟩

example : ∃ s, Sized.Rep s [1, 2] ∧ Sized.finish (s : Sized Nat) = [1, 2] :=
  ⟨{ str := [1, 2, 0], ptr := 2, end_ := 3, good := true }, ⟨by decide, by decide, rfl, rfl⟩, rfl⟩

/-! ### C09 -/

/-- The elementary actions on a string_appender, with the outcome of each allocation: `true` = succeeds. -/
inductive AOp (α : Type) where
  | poke (xs : List α)
  | recycle (ok : Bool)
  | doWrite (ok1 ok2 : Bool) (xs : List α)

/-- one action: the state left behind and whether an exception escaped; `none` = store out of the buffer -/
def AOp.run (s : Appender α) : AOp α → Option (Appender α × Bool)
  | .poke xs => (Appender.poke s xs).map fun s' => (s', false)
  | .recycle ok => some (Appender.recycleE ok s)
  | .doWrite ok1 ok2 xs => some (Appender.doWriteE ok1 ok2 s xs)

/-- a history in which the caller catches every exception and goes on; the flag tells whether any was thrown -/
def arun (s : Appender α) (thrown : Bool) : List (AOp α) → Option (Appender α × Bool)
  | [] => some (s, thrown)
  | op :: ops =>
    match op.run s with
    | none => none
    | some (s', b) => arun s' (thrown || b) ops

/-- the characters an action asks to be appended -/
def AOp.text : AOp α → List α
  | .poke xs => xs
  | .recycle _ => []
  | .doWrite _ _ xs => xs

theorem arun_spec (start : List α) (ops : List (AOp α)) : ∀ (s s' : Appender α) (th th' : Bool) (t : List α),
    arun s th ops = some (s', th') →
    (th = !s.good) → (s.good = true → s.str ++ s.buf.take s.ptr = start ++ t) →
    (s.good = false → s.str <+: start ++ t) →
    th' = (!s'.good) ∧
    (s'.good = true → s'.str ++ s'.buf.take s'.ptr = start ++ t ++ (ops.map AOp.text).flatten) ∧
    (s'.good = false → s'.str <+: start ++ t ++ (ops.map AOp.text).flatten) := by
  induction ops with
  | nil =>
    intro s s' th th' t h hth hg hb
    simp only [arun, Option.some.injEq, Prod.mk.injEq] at h
    obtain ⟨rfl, rfl⟩ := h
    refine ⟨hth, fun g => by simpa using hg g, fun g => by simpa using hb g⟩
  | cons op ops ih =>
    intro s s' th th' t h hth hg hb
    simp only [arun] at h
    have key : ∀ s1 b, op.run s = some (s1, b) → (th || b) = (!s1.good) ∧
        (s1.good = true → s1.str ++ s1.buf.take s1.ptr = start ++ (t ++ op.text)) ∧
        (s1.good = false → s1.str <+: start ++ (t ++ op.text)) := by
      intro s1 b h1
      obtain ⟨str, buf, ptr, good⟩ := s
      simp only at hth hg hb
      cases op with
      | poke xs =>
        simp only [AOp.run, Appender.poke, Option.map_map, Option.map_eq_some_iff] at h1
        obtain ⟨b1, e1, e2⟩ := h1
        simp only [Function.comp, Prod.mk.injEq] at e2
        obtain ⟨rfl, rfl⟩ := e2
        have hfit : ptr + xs.length ≤ buf.length := by
          unfold storeAt at e1; split at e1
          · assumption
          · cases e1
        obtain ⟨b2, f1, f2, f3, _⟩ := storeAt_some hfit
        rw [f1] at e1; cases e1
        refine ⟨by simpa using hth, fun g => ?_, fun g => ?_⟩
        · simp only at g ⊢
          rw [f3, ← List.append_assoc, hg g]; simp [AOp.text]
        · exact (hb g).trans ⟨xs, by simp [AOp.text]⟩
      | recycle ok =>
        simp only [AOp.run, Option.some.injEq] at h1
        cases good <;> cases ok <;> simp only [Appender.recycleE] at h1 <;>
          (injection h1 with e1 e2; subst e1; subst e2)
        · exact ⟨by simpa using hth, by simp, fun _ => by simpa [AOp.text] using hb rfl⟩
        · exact ⟨by simpa using hth, by simp, fun _ => by simpa [AOp.text] using hb rfl⟩
        · refine ⟨by simp, by simp, fun _ => ?_⟩
          simp only [AOp.text, List.append_nil]
          rw [← hg rfl]; exact List.prefix_append _ _
        · refine ⟨by simpa using hth, fun _ => ?_, by simp⟩
          simpa [AOp.text] using hg rfl
      | doWrite ok1 ok2 xs =>
        simp only [AOp.run, Option.some.injEq] at h1
        cases good <;> cases ok1 <;> cases ok2 <;> simp only [Appender.doWriteE] at h1 <;>
          (injection h1 with e1 e2; subst e1; subst e2)
        iterate 4 exact ⟨by simpa using hth, by simp, fun _ => (hb rfl).trans ⟨xs, by simp [AOp.text]⟩⟩
        · refine ⟨by simp, by simp, fun _ => ?_⟩
          refine (List.prefix_append str (buf.take ptr)).trans ?_
          rw [hg rfl]; exact ⟨xs, by simp [AOp.text]⟩
        · refine ⟨by simp, by simp, fun _ => ?_⟩
          refine (List.prefix_append str (buf.take ptr)).trans ?_
          rw [hg rfl]; exact ⟨xs, by simp [AOp.text]⟩
        · refine ⟨by simp, by simp, fun _ => ?_⟩
          simp only [if_true, hg rfl]; exact ⟨xs, by simp [AOp.text]⟩
        · refine ⟨by simpa using hth, fun _ => ?_, by simp⟩
          simp only [AOp.text, if_true]
          rw [hg rfl]; simp
    cases h2 : op.run s with
    | none => rw [h2] at h; cases h
    | some r =>
      obtain ⟨s1, b⟩ := r
      rw [h2] at h
      obtain ⟨k1, k2, k3⟩ := key s1 b h2
      have := ih s1 s' _ th' (t ++ op.text) h k1 k2 k3
      simpa [List.append_assoc] using this

/-- C09: for every history of actions on a string_appender and every pattern of failing allocations (the caller
catching the exceptions and going on), the target holds a prefix of start ++ text; if no exception escaped, finish()
completes it. -/
theorem appender_exception_prefix (start junk : List α) (ops : List (AOp α)) (s : Appender α) (thrown : Bool)
    (h : arun (Appender.init start junk) false ops = some (s, thrown)) (ok : Bool) :
    s.str <+: start ++ (ops.map AOp.text).flatten ∧
    (Appender.destroyE ok (Appender.finishE ok s).1).str <+: start ++ (ops.map AOp.text).flatten ∧
    (Appender.destroyE ok s).str <+: start ++ (ops.map AOp.text).flatten ∧
    (thrown = false → (Appender.finishE true s).1.str = start ++ (ops.map AOp.text).flatten) := by
  obtain ⟨h1, h2, h3⟩ := arun_spec start ops _ s false thrown [] h rfl (by simp [Appender.init]) (by simp [Appender.init])
  simp only [List.append_nil] at h2 h3
  cases hg : s.good with
  | true =>
    have e := h2 hg
    have p : s.str <+: start ++ (ops.map AOp.text).flatten := by rw [← e]; exact List.prefix_append _ _
    refine ⟨p, ?_, ?_, fun _ => ?_⟩
    · cases ok <;> simp [Appender.destroyE, Appender.finishE, hg]
      · exact p
      · rw [e]; exact List.prefix_refl _
    · cases ok <;> simp [Appender.destroyE, hg]
      · exact p
      · rw [e]; exact List.prefix_refl _
    · simp [Appender.finishE, hg, e]
  | false =>
    have p := h3 hg
    refine ⟨p, ?_, ?_, fun ht => ?_⟩
    · simpa [Appender.destroyE, Appender.finishE, hg] using p
    · simpa [Appender.destroyE, hg] using p
    · rw [h1, hg] at ht; cases ht

/-- C09: after an append has thrown, nothing is ever appended again: not by later actions, `finish()` or the
destructor. -/
theorem appender_never_retries (s : Appender α) (hbad : s.good = false) (ops : List (AOp α)) (s' : Appender α)
    (th th' : Bool) (h : arun s th ops = some (s', th')) (ok : Bool) :
    s'.str = s.str ∧ s'.good = false ∧ (Appender.finishE ok s').1.str = s.str ∧
      (Appender.destroyE ok s').str = s.str := by
  have main : s'.str = s.str ∧ s'.good = false := by
    induction ops generalizing s th with
    | nil => simp [arun] at h; obtain ⟨rfl, rfl⟩ := h; exact ⟨rfl, hbad⟩
    | cons op ops ih =>
      simp only [arun] at h
      cases h2 : op.run s with
      | none => rw [h2] at h; cases h
      | some r =>
        obtain ⟨s1, b⟩ := r
        rw [h2] at h
        have : s1.str = s.str ∧ s1.good = false := by
          cases op with
          | poke xs =>
            simp only [AOp.run, Appender.poke, Option.map_map, Option.map_eq_some_iff] at h2
            obtain ⟨b1, e1, e2⟩ := h2
            simp only [Function.comp, Prod.mk.injEq] at e2
            obtain ⟨rfl, _⟩ := e2
            exact ⟨rfl, hbad⟩
          | recycle ok => simp [AOp.run, Appender.recycleE, hbad] at h2; obtain ⟨rfl, _⟩ := h2; exact ⟨rfl, rfl⟩
          | doWrite a b xs => simp [AOp.run, Appender.doWriteE, hbad] at h2; obtain ⟨rfl, _⟩ := h2; exact ⟨rfl, rfl⟩
        obtain ⟨j1, j2⟩ := ih s1 this.2 _ h
        exact ⟨j1.trans this.1, j2⟩
  refine ⟨main.1, main.2, ?_, ?_⟩
  · simp [Appender.finishE, main.2, main.1]
  · simp [Appender.destroyE, main.2, main.1]

/-- the failing action itself: an exception escapes iff the destination turns bad -/
theorem appender_throw_iff_bad (s : Appender α) (hg : s.good = true) (op : AOp α) (s' : Appender α) (b : Bool)
    (h : op.run s = some (s', b)) : b = !s'.good := by
  obtain ⟨str, buf, ptr, good⟩ := s
  simp only at hg; subst hg
  cases op with
  | poke xs =>
    simp only [AOp.run, Appender.poke, Option.map_map, Option.map_eq_some_iff] at h
    obtain ⟨b1, e1, e2⟩ := h
    simp only [Function.comp, Prod.mk.injEq] at e2
    obtain ⟨rfl, rfl⟩ := e2; rfl
  | recycle ok => cases ok <;> (simp [AOp.run, Appender.recycleE] at h; obtain ⟨rfl, rfl⟩ := h; rfl)
  | doWrite a c xs => cases a <;> cases c <;> (simp [AOp.run, Appender.doWriteE] at h; obtain ⟨rfl, rfl⟩ := h; rfl)

example : ∃ s : Appender Nat, arun (Appender.init [5] (List.replicate 64 0)) false
    [.poke [1, 2], .recycle true, .poke [3], .doWrite true false [4], .poke [6], .recycle true] = some (s, true) ∧
    s.str = [5, 1, 2, 3] ∧ s.good = false := ⟨_, rfl, rfl, rfl⟩

/-- A defect beside C09: if an allocation fails in the first `do_write` of a `string_maker` after the string object
was constructed, `string_initialized_` is still false, so the destructor never destroys that object (leak). -/
theorem maker_leak_on_throw :
    let s := (Maker.doWriteE true true false (Maker.init (List.replicate 64 (0 : Nat))) [1, 2]).1
    (Maker.destroy s).str = some [] ∧ s.good = false := by decide

end Strf.Dest

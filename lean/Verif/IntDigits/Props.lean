import Verif.IntDigits.DestLemmas
import Verif.Dest.Props
/-
C27, C28, C29: counting and writing the digits of integers.
-/
namespace Strf.IntDigits
open Spec Strf.Numpunct Strf.Numpunct.Spec
open Strf.Dest (Dest Lawful Prints)

variable {σ : Type} {D : Dest Nat σ} {Rep : σ → List Nat → Prop}

/-- the bases -/
def Base (b : Nat) : Prop := b = 2 ∨ b = 8 ∨ b = 10 ∨ b = 16
/-- the sizes of the integer types -/
def Bytes (n : Nat) : Prop := n = 1 ∨ n = 2 ∨ n = 4 ∨ n = 8

theorem Bytes.le64 {n v : Nat} (h : Bytes n) (hv : v < 2 ^ (8 * n)) : v < 2 ^ 64 := by
  rcases h with rfl | rfl | rfl | rfl <;> simp at hv ⊢ <;> omega

/-! ### C27 -/

/-- C27: count_digits is the number of digits of the numeral, for every base and integer type. -/
theorem count_digits_exact (base bytes v : Nat) (hb : Base base) (hn : Bytes bytes) (hv : v < 2 ^ (8 * bytes)) :
    countDigits base bytes v = (numeral base v).length := by
  rcases hb with rfl | rfl | rfl | rfl <;> rcases hn with rfl | rfl | rfl | rfl
  · exact count2_1_ok v hv
  · exact count2_2_ok v hv
  · exact count2_4_ok v hv
  · exact count2_8_ok v hv
  · exact count8_1_ok v hv
  · exact count8_2_ok v hv
  · exact count8_4_ok v hv
  · exact count8_8_ok v hv
  · exact count10_1_ok v hv
  · exact count10_2_ok v hv
  · exact count10_4_ok v hv
  · exact count10_8_ok v hv
  · exact count16_1_ok v hv
  · exact count16_2_ok v hv
  · exact count16_4_ok v hv
  · exact count16_8_ok v hv

example : Base 10 ∧ Bytes 8 ∧ countDigits 10 8 18446744073709551615 = 20 ∧ countDigits 2 4 0 = 1 := by
  refine ⟨by simp [Base], by simp [Bytes], ?_, ?_⟩ <;> decide +kernel

/-- C27: the variants that use the count-leading-zeros instruction agree. -/
theorem count_digits_clz_exact (bits v : Nat) (hb : 1 ≤ bits) (hv : v < 2 ^ bits) :
    count2Clz bits v = (numeral 2 v).length ∧ count8Clz bits v = (numeral 8 v).length ∧
    count16Clz bits v = (numeral 16 v).length := by
  have h := clz_len bits v hb hv
  have hl := len2_le bits v hb hv
  have hp := len_pos 2 v (by decide)
  rw [len8_of_len2, len16_of_len2]
  unfold count2Clz count8Clz count16Clz
  omega

example : count8Clz 64 0o1777777777777777777777 = 22 ∧ count16Clz 32 0xFFF = 3 ∧ count2Clz 32 0 = 1 := by decide +kernel

/-- The numeral of the specification is what it should be: digits below the base, no leading zero unless the value is
zero, and its value is `v`. -/
theorem numeral_meaning (b v : Nat) (hb : 1 < b) :
    (∀ d ∈ numeral b v, d < b) ∧ (numeral b v).foldl (fun acc d => acc * b + d) 0 = v ∧
    (v ≠ 0 → (numeral b v).head? ≠ some 0) ∧ (v = 0 → numeral b v = [0]) := by
  unfold numeral
  by_cases hv : v = 0
  · subst hv; simp; omega
  · rw [if_neg hv]
    refine ⟨fun d hd => Nat.digits_lt_base hb (List.mem_reverse.1 hd), ?_, fun _ => ?_, fun h => absurd h hv⟩
    · rw [List.foldl_reverse]
      have : ∀ l : List Nat, List.foldr (fun d acc => acc * b + d) 0 l = Nat.ofDigits b l := by
        intro l
        induction l with
        | nil => rfl
        | cons d l ih => rw [List.foldr_cons, ih, Nat.ofDigits_cons, Nat.mul_comm]; exact Nat.add_comm _ _
      rw [this, Nat.ofDigits_digits]
    · rw [List.head?_reverse]
      have hne : Nat.digits b v ≠ [] := Nat.digits_ne_nil_iff_ne_zero.mpr hv
      rw [List.getLast?_eq_getLast_of_ne_nil hne]
      intro h
      exact Nat.getLast_digit_ne_zero b hv (Option.some.inj h)

theorem digitVal_digitChar (lc : Lettercase) (d : Nat) (h : d < 16) : digitVal (digitChar lc d) = d := by
  unfold digitVal digitChar
  by_cases h1 : d < 10
  · simp [h1]; omega
  · cases lc <;> simp [h1] <;> split_ifs <;> omega

/-- C27: the text of a value parses back to it, starts with '0' only for zero, and consists of the characters 0-9 and
a-f, or A-F unless the letter case is lower. -/
theorem text_parses_back (b : Nat) (hb : Base b) (lc : Lettercase) (v : Nat) :
    parse b (text b lc v) = v ∧
    ((text b lc v).head? = some 48 → v = 0) ∧
    (∀ c ∈ text b lc v, (48 ≤ c ∧ c ≤ 57) ∨ (lc = .lower ∧ 97 ≤ c ∧ c ≤ 102) ∨ (lc ≠ .lower ∧ 65 ≤ c ∧ c ≤ 70)) := by
  have hb1 : 1 < b := by rcases hb with h | h | h | h <;> omega
  have hb16 : b ≤ 16 := by rcases hb with h | h | h | h <;> omega
  obtain ⟨m1, m2, m3, m4⟩ := numeral_meaning b v hb1
  refine ⟨?_, ?_, ?_⟩
  · unfold parse text
    rw [List.foldl_map]
    have : ∀ (l : List Nat) (acc : Nat), (∀ d ∈ l, d < b) →
        l.foldl (fun acc d => acc * b + digitVal (digitChar lc d)) acc = l.foldl (fun acc d => acc * b + d) acc := by
      intro l
      induction l with
      | nil => intros; rfl
      | cons d l ih =>
        intro acc h
        have := h d (by simp)
        simp only [List.foldl_cons]
        rw [digitVal_digitChar lc d (by omega), ih _ (fun x hx => h x (by simp [hx]))]
    rw [this _ _ m1, m2]
  · intro h
    by_cases hv : v = 0
    · exact hv
    · exfalso
      have h3 := m3 hv
      unfold text at h
      rw [List.head?_map] at h
      cases hd : (numeral b v).head? with
      | none => rw [hd] at h; cases h
      | some d =>
        rw [hd] at h h3
        have h4 : digitChar lc d = 48 := by simpa using h
        have := digitVal_digitChar lc d (by have := m1 d (List.mem_of_head? hd); omega)
        rw [h4] at this
        have h5 : d = 0 := by rw [← this]; rfl
        exact h3 (by rw [h5])
  · intro c hc
    obtain ⟨d, hd, rfl⟩ := List.mem_map.1 hc
    have := m1 d hd
    unfold digitChar
    by_cases h1 : d < 10
    · left; rw [if_pos h1]; omega
    · right; rw [if_neg h1]
      cases lc
      · left; refine ⟨rfl, ?_⟩; simp; omega
      · right; refine ⟨by simp, ?_⟩; simp; omega
      · right; refine ⟨by simp, ?_⟩; simp; omega

example : text 16 .upper 0xBEEF = "BEEF".toList.map Char.toNat ∧ text 8 .lower 8 = [49, 48] := by decide +kernel

/-- C27: the digit buffers are large enough. -/
theorem digits_fit_buffer (base bytes v : Nat) (hb : Base base) (hn : Bytes bytes) (hv : v < 2 ^ (8 * bytes)) :
    (text base .lower v).length ≤ maxNumDigits base bytes := by
  have h := len2_le (8 * bytes) v (by rcases hn with h | h | h | h <;> omega) hv
  rw [text_length]
  rcases hb with rfl | rfl | rfl | rfl
  · show _ ≤ bytes * 8; omega
  · show _ ≤ (bytes * 8 + 2) / 3; rw [len8_of_len2]; omega
  · rw [← count_digits_exact 10 bytes v (by simp [Base]) hn hv]
    rcases hn with rfl | rfl | rfl | rfl
    · show count10_1 v ≤ 3; unfold count10_1; split_ifs <;> omega
    · show count10_2 v ≤ 5; unfold count10_2; split_ifs <;> omega
    · show count10_4 v ≤ 10; unfold count10_4; split_ifs <;> omega
    · show count10_8 v ≤ 20; unfold count10_8; split_ifs <;> omega
  · show _ ≤ bytes * 2; rw [len16_of_len2]; omega

example : maxNumDigits 10 8 = 20 ∧ maxNumDigits 8 8 = 22 := by decide

/-- C27: write_int, given the count of digits, writes the text of the value to any destination, whatever room its
buffer has, without storing outside it. -/
theorem write_int_exact (L : Lawful D Rep) (base bytes v : Nat) (lc : Lettercase) (hb : Base base) (hn : Bytes bytes)
    (hv : v < 2 ^ (8 * bytes)) :
    Prints τ D Rep (writeInt D base lc v (countDigits base bytes v)) (text base lc v) := by
  rw [count_digits_exact base bytes v hb hn hv]
  have h64 := hn.le64 hv
  intro s t h
  unfold writeInt
  rcases hb with rfl | hb
  · exact writeBin_prints L lc v s t h
  · rw [if_neg (by omega)]
    exact writeBack_prints L base hb lc v h64 s t h

/-- 62 units are in a string_maker's buffer when 9876 is written: it is flushed first, and the result is right. -/
example : (writeInt Dest.Maker.dest 10 .lower 9876 4
      { Dest.Maker.init (List.replicate 64 0) with ptr := 62 }).map (fun s => (Dest.Maker.finishE true s).2) =
    some (some (List.replicate 62 0 ++ [57, 56, 55, 54])) := by decide +kernel

/-! ### C28 -/

/-- What `grouped` means: pieces of the given sizes which together are the digits, joined by the separator. -/
theorem grouped_meaning (sep : List Nat) (sizes ds : List Nat) (h : sizes.sum = ds.length) (hne : sizes ≠ []) :
    ∃ pieces : List (List Nat), grouped sep sizes ds = List.intercalate sep pieces ∧ pieces.flatten = ds ∧
      pieces.map List.length = sizes ∧ (grouped sep sizes ds).length = ds.length + (sizes.length - 1) * sep.length := by
  refine ⟨chop sizes ds, rfl, ?_, ?_, grouped_length sep sizes ds h hne⟩
  · clear hne
    induction sizes generalizing ds with
    | nil => rw [List.sum_nil] at h; simp [chop, List.length_eq_zero_iff.mp h.symm]
    | cons n ns ih =>
      rw [List.sum_cons] at h
      rw [chop, List.flatten_cons, ih _ (by simp; omega), List.take_append_drop]
  · clear hne
    induction sizes generalizing ds with
    | nil => rfl
    | cons n ns ih =>
      rw [List.sum_cons] at h
      rw [chop, List.map_cons, ih _ (by simp; omega), List.length_take]
      congr 1; omega

theorem filter_intercalate (c : Nat) (xs : List (List Nat)) (h : ∀ x ∈ xs, c ∉ x) :
    (List.intercalate [c] xs).filter (· ≠ c) = xs.flatten := by
  induction xs with
  | nil => rfl
  | cons x xs ih =>
    have hx : x.filter (· ≠ c) = x := by
      rw [List.filter_eq_self]; intro a ha
      simp only [ne_eq, decide_not, Bool.not_eq_eq_eq_not, Bool.not_true, decide_eq_false_iff_not]
      intro e; exact h x (by simp) (e ▸ ha)
    by_cases hn : xs = []
    · subst hn; rw [intercalate_single, hx]; simp
    · rw [intercalate_cons _ _ _ hn, List.filter_append, List.filter_append, hx, ih (fun y hy => h y (by simp [hy]))]
      simp

/-- C28: removing the separators (when the separator is not itself a digit of the text) gives the plain digits. -/
theorem grouped_unseparated (sep : Nat) (b : Nat) (lc : Lettercase) (v : Nat) (gs : List Nat) (rep : Bool)
    (hs : sep ∉ text b lc v) :
    (grouped [sep] (split gs rep (text b lc v).length).reverse (text b lc v)).filter (· ≠ sep) = text b lc v := by
  obtain ⟨ps, e1, e2, _, _⟩ := grouped_meaning [sep] (split gs rep (text b lc v).length).reverse (text b lc v)
    (by rw [List.sum_reverse, split, splitFrom_sum]) (by rw [Ne, List.reverse_eq_nil_iff]; exact splitFrom_ne_nil _ _ _ _ _)
  rw [e1, filter_intercalate, e2]
  intro x hx hm
  exact hs (e2 ▸ List.mem_flatten.2 ⟨x, hx, hm⟩)

example : grouped [44] (split [3] true 7).reverse (text 10 .lower 1234567) = "1,234,567".toList.map Char.toNat := by
  decide +kernel

/-- C28: write_int_little_sep with a single-unit separator, in bases 8, 10 and 16, writes the digits grouped as the
grouping says, to any destination. It is called when the value has at least one separator. -/
theorem write_int_little_sep_exact_partial (L : Lawful D Rep) (base bytes v sep : Nat) (lc : Lettercase)
    (hb : Base base) (h2 : base ≠ 2) (hn : Bytes bytes) (hv : v < 2 ^ (8 * bytes)) (gs : List Nat) (rep : Bool)
    (hg : Valid gs rep) (hsep : 1 ≤ separatorsCount (ctor2 (args gs rep)) (countDigits base bytes v)) :
    Prints τ D Rep (writeIntLittle D base lc sep v (ctor2 (args gs rep)) (countDigits base bytes v)
        (separatorsCount (ctor2 (args gs rep)) (countDigits base bytes v)))
      (grouped [sep] (split gs rep (text base lc v).length).reverse (text base lc v)) := by
  rw [count_digits_exact base bytes v hb hn hv] at hsep ⊢
  rw [separators_count_exact gs rep hg] at hsep ⊢
  have hb' : base = 8 ∨ base = 10 ∨ base = 16 := by rcases hb with h | h <;> [exact absurd h h2; exact h]
  have hne : gs ≠ [] := by
    intro h; subst h; rw [split, splitFrom_nil] at hsep; simp at hsep
  have h16 : base = 16 → 0xF < v := by
    intro h; subst h
    by_contra hc
    have hl : (numeral 16 v).length = 1 := by rw [← rtext_length 16 .lower, rtext_lt 16 .lower v (by omega)]; rfl
    rw [hl] at hsep
    have h3 : split gs rep 1 = [1] := by
      unfold split; rw [splitFrom]
      cases hgs : groupSize gs rep 0 with
      | none => rfl
      | some g => have := (hg.2.1 g (groupSize_mem gs rep 0 g hgs)).1; simp [this]
    rw [h3] at hsep; simp at hsep
  rw [text_length]
  intro s t h
  unfold writeIntLittle
  rw [if_neg h2]
  exact writeLittle_prints L base hb' lc sep v (hn.le64 hv) gs rep hg hne h16 s t h

/-- C28: in base 2 write_int_little_sep does the same only if the most significant group fits in the space left. -/
theorem write_bin_little_sep_partial (L : Lawful D Rep) (bytes v sep : Nat) (lc : Lettercase) (hn : Bytes bytes)
    (hv : v < 2 ^ (8 * bytes)) (gs : List Nat) (rep : Bool) (hg : Valid gs rep) (sepcount : Nat) (s : σ) (t : List Nat)
    (h : Rep s t) (g : Nat) (hh : (split gs rep (text 2 lc v).length).getLast? = some g) (hsp : g ≤ D.space s) :
    ∃ s', writeIntLittle D 2 lc sep v (ctor2 (args gs rep)) (countDigits 2 bytes v) sepcount s = some s' ∧
      Rep s' (t ++ grouped [sep] (split gs rep (text 2 lc v).length).reverse (text 2 lc v)) ∧
      (D.good s' = true → D.good s = true) := by
  rw [count_digits_exact 2 bytes v (by simp [Base]) hn hv]
  obtain ⟨d, ed, hl, _, hk⟩ := binGroups_ok (τ := false) L lc [sep] (by simp) v gs rep hg
  rw [text_length] at hh ⊢
  rw [hl] at hh
  cases hh
  obtain ⟨s', e, r⟩ := hk s t h hsp
  refine ⟨s', ?_, r.1, r.2.1⟩
  unfold writeIntLittle writeBinLittle
  rw [if_pos rfl, ed]
  exact e

/-- C28/C30 fail in base 2 with a single-unit separator: the first group is stored without looking at the space left.
A string_maker that holds 64 characters has no room left, and writing 0b101 in groups of two stores past the end of
its buffer. -/
theorem write_bin_little_sep_wrong :
    ∃ s : Dest.Maker Nat, Dest.runOps Dest.Maker.dest (Dest.Maker.init (List.replicate 64 0))
        [.write (List.replicate 64 46)] = some s ∧
      writeIntLittle Dest.Maker.dest 2 .lower 44 5 (ctor2 (args [2] true)) (countDigits 2 4 5) 1 s = none :=
  ⟨_, rfl, by decide +kernel⟩

/-- C28: write_int_big_sep with a separator of any encoding writes the digits grouped as the grouping says, in every
base and to any destination. -/
theorem write_int_big_sep_exact (L : Lawful D Rep) (base bytes v : Nat) (sep : List Nat) (hs : sep.length ≤ 42)
    (lc : Lettercase) (hb : Base base) (hn : Bytes bytes) (hv : v < 2 ^ (8 * bytes)) (gs : List Nat) (rep : Bool)
    (hg : Valid gs rep) :
    Prints τ D Rep (writeIntBig D base lc sep v (ctor2 (args gs rep)) (countDigits base bytes v))
      (grouped sep (split gs rep (text base lc v).length).reverse (text base lc v)) := by
  rw [count_digits_exact base bytes v hb hn hv, text_length]
  intro s t h
  unfold writeIntBig
  rcases hb with rfl | hb
  · exact writeBinBig_prints L lc sep (by omega) v (hn.le64 hv) gs rep hg s t h
  · rw [if_neg (by omega)]
    exact writeBig_prints L base hb lc sep hs v (hn.le64 hv) gs rep hg s t h

example : (writeIntBig Dest.Maker.dest 10 .lower [0xC2, 0xB7] 1234567 (ctor2 (args [3, 2] true)) 7
      { Dest.Maker.init (List.replicate 64 0) with ptr := 62 }).map (fun s => (Dest.Maker.finishE true s).2) =
    some (some (List.replicate 62 0 ++ [49, 50, 0xC2, 0xB7, 51, 52, 0xC2, 0xB7, 53, 54, 55])) := by decide +kernel

/-! ### C29 -/

/-- C29: unsigned_abs is the absolute value for every value of a signed type of any size, without overflow. -/
theorem unsigned_abs_exact (bits : Nat) (hb : 1 ≤ bits) (v : Int) (h1 : -2 ^ (bits - 1) ≤ v) (h2 : v < 2 ^ (bits - 1)) :
    unsignedAbs bits v = some v.natAbs ∧ v.natAbs < 2 ^ bits := by
  obtain ⟨k, rfl⟩ : ∃ k, bits = k + 1 := ⟨bits - 1, by omega⟩
  rw [Nat.add_sub_cancel] at h1 h2
  have hp : (2 : Nat) ^ (k + 1) = 2 * 2 ^ k := by rw [Nat.pow_succ]; omega
  have hk := Nat.two_pow_pos k
  have hc : ((2 ^ k : Nat) : Int) = (2 : Int) ^ k := by push_cast; rfl
  have hlt : v.natAbs < 2 ^ (k + 1) := by omega
  refine ⟨?_, hlt⟩
  unfold unsignedAbs
  by_cases hv : v ≥ 0
  · rw [if_pos hv, Nat.mod_eq_of_lt (by omega)]
    congr 1; omega
  · rw [if_neg hv]
    dsimp only
    rw [Nat.add_sub_cancel, if_pos (by omega)]
    have : (-(v + 1)).toNat < 2 ^ (k + 1) := by omega
    rw [Nat.mod_eq_of_lt this, Nat.mod_eq_of_lt (by omega)]
    congr 1; omega

example : unsignedAbs 64 (-9223372036854775808) = some 9223372036854775808 := by decide +kernel

end Strf.IntDigits

import Verif.Float.Amplified
/-
Lemmas about decimal digits.
-/
namespace Strf.Float
open Strf.Float.Spec hiding Notation
open Strf.IntDigits Strf.IntDigits.Spec Strf.Numpunct Strf.Numpunct.Spec Strf.Print

/-- the last `n` decimal digits of `v` -/
def decDigits : Nat → Nat → List Nat
  | 0, _ => []
  | n + 1, v => decDigits n (v / 10) ++ [0x30 + v % 10]

theorem decDigits_length (n v : Nat) : (decDigits n v).length = n := by
  induction n generalizing v with
  | zero => rfl
  | succ n ih => simp [decDigits, ih]

theorem text_ge (v : Nat) (h : 10 ≤ v) : text 10 .lower v = text 10 .lower (v / 10) ++ [0x30 + v % 10] := by
  rw [← rtext_reverse, rtext_ge 10 (by decide) .lower v h, List.reverse_cons, rtext_reverse, digitChar_dec _ _ (by omega)]

theorem text_lt (v : Nat) (h : v < 10) : text 10 .lower v = [0x30 + v] := by
  rw [← rtext_reverse, rtext_lt 10 .lower v h, digitChar_dec _ _ (by omega)]; rfl

theorem len_ge (v : Nat) (h : 10 ≤ v) : (numeral 10 v).length = (numeral 10 (v / 10)).length + 1 := by
  rw [← text_length 10 .lower, text_ge v h]; simp [text_length]

theorem len_lt (v : Nat) (h : v < 10) : (numeral 10 v).length = 1 := by
  rw [← text_length 10 .lower, text_lt v h]; rfl

theorem len_pos10 (v : Nat) : 1 ≤ (numeral 10 v).length := len_pos 10 v (by decide)

theorem len_le (v n : Nat) (hn : 1 ≤ n) (h : v < 10 ^ n) : (numeral 10 v).length ≤ n := by
  obtain ⟨h1, h2, _⟩ := numeral_bounds 10 (by decide) v
  by_contra hc
  rcases h2 with h2 | h2
  · omega
  · have := Nat.pow_le_pow_right (show 0 < 10 by decide) (show n ≤ (numeral 10 v).length - 1 by omega)
    omega

theorem lt_of_len (v n : Nat) (h : (numeral 10 v).length ≤ n) : v < 10 ^ n := by
  obtain ⟨_, _, h3⟩ := numeral_bounds 10 (by decide) v
  exact lt_of_lt_of_le h3 (Nat.pow_le_pow_right (by decide) h)

theorem le_of_len (v n : Nat) (h : n < (numeral 10 v).length) : n = 0 ∨ 10 ^ n ≤ v := by
  obtain ⟨_, h2, _⟩ := numeral_bounds 10 (by decide) v
  by_cases hn : n = 0
  · exact .inl hn
  · right
    rcases h2 with h2 | h2
    · omega
    · exact le_trans (Nat.pow_le_pow_right (by decide) (by omega)) h2

theorem decDigits_zero (n : Nat) : decDigits n 0 = List.replicate n 0x30 := by
  induction n with
  | zero => rfl
  | succ n ih => rw [decDigits, Nat.zero_div, ih, List.replicate_succ']

theorem decDigits_small (n v : Nat) (h : (numeral 10 v).length ≤ n) :
    decDigits n v = List.replicate (n - (numeral 10 v).length) 0x30 ++ text 10 .lower v := by
  induction n generalizing v with
  | zero => have := len_pos10 v; omega
  | succ n ih =>
    rw [decDigits]
    by_cases hv : v < 10
    · rw [len_lt v hv, text_lt v hv, Nat.div_eq_of_lt hv, decDigits_zero, Nat.mod_eq_of_lt hv, Nat.add_sub_cancel]
    · have := len_ge v (by omega)
      rw [ih (v / 10) (by omega), text_ge v (by omega), this, ← List.append_assoc,
        show n + 1 - ((numeral 10 (v / 10)).length + 1) = n - (numeral 10 (v / 10)).length by omega]

theorem text_split (f v : Nat) (h : f < (numeral 10 v).length) :
    text 10 .lower v = text 10 .lower (v / 10 ^ f) ++ decDigits f v := by
  induction f generalizing v with
  | zero => simp [decDigits]
  | succ f ih =>
    have hv : 10 ≤ v := by
      by_contra hc
      have := len_lt v (by omega); omega
    have := len_ge v hv
    rw [text_ge v hv, ih (v / 10) (by omega), decDigits, Nat.pow_succ', ← Nat.div_div_eq_div_mul, List.append_assoc]

theorem len_div (f v : Nat) (h : f < (numeral 10 v).length) :
    (numeral 10 (v / 10 ^ f)).length = (numeral 10 v).length - f := by
  have := congrArg List.length (text_split f v h)
  rw [List.length_append, decDigits_length, text_length, text_length] at this
  omega

theorem len_div_eq (f v : Nat) :
    (numeral 10 (v / 10 ^ f)).length = if f < (numeral 10 v).length then (numeral 10 v).length - f else 1 := by
  split_ifs with h
  · exact len_div f v h
  · rw [Nat.div_eq_of_lt (lt_of_len v f (by omega))]; rfl

theorem atLeast_eq (f v : Nat) : atLeast (f + 1) v = text 10 .lower (v / 10 ^ f) ++ decDigits f v := by
  unfold atLeast
  by_cases h : f < (numeral 10 v).length
  · rw [← text_split f v h, text_length, show f + 1 - (numeral 10 v).length = 0 by omega]; rfl
  · rw [Nat.div_eq_of_lt (lt_of_len v f (by omega)), decDigits_small f v (by omega), text_length, text_lt 0 (by omega),
      show f + 1 - (numeral 10 v).length = (f - (numeral 10 v).length) + 1 by omega, List.replicate_succ]
    rfl

theorem body_eq (point sep gs : List Nat) (rep alt : Bool) (v f : Nat) :
    body point sep gs rep alt v f =
      grouped sep (split gs rep (numeral 10 (v / 10 ^ f)).length).reverse (text 10 .lower (v / 10 ^ f)) ++
        (if alt ∨ 0 < f then point else []) ++ decDigits f v := by
  unfold body
  dsimp only
  have hl : (atLeast (f + 1) v).length - f = (text 10 .lower (v / 10 ^ f)).length := by
    rw [atLeast_eq, List.length_append, decDigits_length]; omega
  rw [hl, atLeast_eq, List.take_left, List.drop_left, text_length]

theorem body_length (point sep gs : List Nat) (rep alt : Bool) (v f : Nat) :
    (body point sep gs rep alt v f).length = (numeral 10 (v / 10 ^ f)).length +
      ((split gs rep (numeral 10 (v / 10 ^ f)).length).length - 1) * sep.length +
      (if alt ∨ 0 < f then point.length else 0) + f := by
  rw [body_eq, List.length_append, List.length_append, grouped_text_length, decDigits_length]
  split_ifs <;> rfl

theorem split_nil_length (n : Nat) : (split [] false n).length = 1 := by
  unfold split; rw [splitFrom_nil]; rfl

theorem grouped_plain (gs sep : List Nat) (rep : Bool) (n : Nat) (ds : List Nat) (hn : n = ds.length)
    (h : (split gs rep n).length - 1 = 0) : grouped sep (split gs rep n).reverse ds = ds := by
  have hne : split gs rep n ≠ [] := splitFrom_ne_nil _ _ _ _ _
  have h1 : (split gs rep n).length = 1 := by
    have := List.length_pos_iff.mpr hne; omega
  obtain ⟨k, hk⟩ := List.length_eq_one_iff.mp h1
  have hs : (split gs rep n).sum = n := by rw [split, splitFrom_sum]
  rw [hk] at hs ⊢
  rw [List.reverse_singleton]
  exact IntPrinter.grouped_one sep ds k (by simp at hs; omega)

/-- text of a number with zeros at its end -/
theorem text_mul (v k : Nat) (h : v ≠ 0) : text 10 .lower (v * 10 ^ k) = text 10 .lower v ++ List.replicate k 0x30 := by
  induction k with
  | zero => simp
  | succ k ih =>
    have hp : 0 < v * 10 ^ k := Nat.mul_pos (by omega) (Nat.pow_pos (by decide))
    rw [Nat.pow_succ, ← Nat.mul_assoc, text_ge _ (by omega), Nat.mul_div_cancel _ (by decide), ih,
      show v * 10 ^ k * 10 % 10 = 0 by omega, List.replicate_succ', List.append_assoc]

theorem len_mul (v k : Nat) (h : v ≠ 0) : (numeral 10 (v * 10 ^ k)).length = (numeral 10 v).length + k := by
  have := congrArg List.length (text_mul v k h)
  rw [List.length_append, List.length_replicate, text_length, text_length] at this
  exact this

theorem decDigits_mul (f v k : Nat) : decDigits (f + k) (v * 10 ^ k) = decDigits f v ++ List.replicate k 0x30 := by
  induction k with
  | zero => simp
  | succ k ih =>
    rw [← Nat.add_assoc, decDigits, Nat.pow_succ, ← Nat.mul_assoc, Nat.mul_div_cancel _ (by decide), ih,
      show v * 10 ^ k * 10 % 10 = 0 by omega, List.replicate_succ', List.append_assoc]

theorem expChars_eq (lc : Lettercase) (x : Int) (h : x.natAbs < 1000) : expChars lc x = expText lc x := by
  have h1 : (0x45 ||| (if lc ≠ .upper then 32 else 0)) = if lc = .upper then 0x45 else 0x65 := by cases lc <;> rfl
  have h2 : (0x2B + (if x < 0 then 2 else 0)) = if x < 0 then 0x2D else 0x2B := by split_ifs <;> rfl
  unfold expChars expText
  dsimp only
  rw [h1, h2]
  generalize x.natAbs = a at h
  have h3 : (if a ≥ 100 then [0x30 + a / 10 / 10, 0x30 + a / 10 % 10, 0x30 + a % 10]
     else if a ≥ 10 then [0x30 + a / 10, 0x30 + a % 10]
     else [0x30, 0x30 + a]) = atLeast 2 a := by
    unfold atLeast
    by_cases ha : a ≥ 100
    · rw [if_pos ha, text_ge a (by omega), text_ge (a / 10) (by omega), text_lt (a / 10 / 10) (by omega)]; rfl
    · rw [if_neg ha]
      by_cases hb : a ≥ 10
      · rw [if_pos hb, text_ge a (by omega), text_lt (a / 10) (by omega)]; rfl
      · rw [if_neg hb, text_lt a (by omega)]; rfl
  rw [h3]
  rfl

theorem atLeast_length (n v : Nat) : (atLeast n v).length = max n (numeral 10 v).length := by
  unfold atLeast
  rw [List.length_append, List.length_replicate, text_length]
  omega

theorem expText_length (lc : Lettercase) (x : Int) (h : x.natAbs < 1000) :
    ((expText lc x).length : Int) = 4 + c2i (x > 99 ∨ x < -99) := by
  unfold expText c2i
  rw [List.length_cons, List.length_cons, atLeast_length]
  have h3 := len_le x.natAbs 3 (by omega) (by omega)
  have h1 := len_pos10 x.natAbs
  split_ifs with hc
  · have : ¬ (numeral 10 x.natAbs).length ≤ 2 := fun hh => by have := lt_of_len _ _ hh; omega
    omega
  · have := len_le x.natAbs 2 (by omega) (by omega)
    omega

theorem chars_pair (k : Nat) (h : k < 100) :
    chars00to99.getD (k * 2) 0 = 0x30 + k / 10 ∧ chars00to99.getD (k * 2 + 1) 0 = 0x30 + k % 10 := arr_spec ⟨k, h⟩

theorem fracLoop_eq (n m : Nat) (acc : List Nat) : fracLoop n m acc = (m / 10 ^ n, decDigits n m ++ acc) := by
  induction n using Nat.strongRecOn generalizing m acc with
  | _ n ih =>
    rw [fracLoop]
    by_cases h : n ≥ 2
    · obtain ⟨k, rfl⟩ : ∃ k, n = k + 2 := ⟨n - 2, by omega⟩
      obtain ⟨c1, c2⟩ := chars_pair (m % 100) (by omega)
      rw [dif_pos h]
      dsimp only
      rw [c1, c2, Nat.add_sub_cancel, ih k (by omega), decDigits, decDigits, Nat.div_div_eq_div_mul, Nat.div_div_eq_div_mul,
        show 10 ^ (k + 2) = 100 * 10 ^ k by rw [Nat.pow_add, Nat.mul_comm]]
      rw [show m % 100 / 10 = m / 10 % 10 by omega, show m % 100 % 10 = m % 10 by omega]
      simp
    · rw [dif_neg h]
      by_cases h1 : n ≠ 0
      · have : n = 1 := by omega
        subst this
        rw [if_pos h1]; simp [decDigits]
      · have : n = 0 := by omega
        subst this
        rw [if_neg h1]; simp [decDigits]

theorem intLoop_eq (m : Nat) (acc : List Nat) : intLoop m acc = text 10 .lower m ++ acc := by
  induction m using Nat.strongRecOn generalizing acc with
  | _ m ih =>
    rw [intLoop]
    by_cases h : m > 99
    · obtain ⟨c1, c2⟩ := chars_pair (m % 100) (by omega)
      rw [dif_pos h]
      dsimp only
      rw [c1, c2, ih _ (by omega), text_ge m (by omega), text_ge (m / 10) (by omega)]
      rw [show m % 100 / 10 = m / 10 % 10 by omega, show m % 100 % 10 = m % 10 by omega, Nat.div_div_eq_div_mul]
      simp
    · rw [dif_neg h]
      by_cases h1 : m > 9
      · obtain ⟨c1, c2⟩ := chars_pair m (by omega)
        rw [if_pos h1]
        dsimp only
        rw [c1, c2, text_ge m (by omega), text_lt (m / 10) (by omega)]; rfl
      · rw [if_neg h1, text_lt m (by omega)]; rfl

theorem back10_eq (m : Nat) : back10 m [] = text 10 .lower m := by rw [back10_ok .lower, List.append_nil]

theorem count_eq (m : Nat) (h : m < 2 ^ 64) : countDigits 10 8 m = (numeral 10 m).length :=
  count_digits_exact 10 8 m (by simp [Base]) (by simp [Bytes]) h

end Strf.Float

import Verif.Float.ReadSpec
import Verif.Float.Digits
import Verif.IntDigits.Props
import Mathlib.Tactic.FieldSimp
import Mathlib.Tactic.SplitIfs
/-
The texts of numbers without separators are read as the numbers.
-/
namespace Strf.Float
open Strf.Float.Spec hiding Notation
open Strf.IntDigits Strf.IntDigits.Spec Strf.Numpunct.Spec

theorem isDigit_char (d : Nat) (h : d < 10) : isDigit (0x30 + d) = true := by
  unfold isDigit; rw [decide_eq_true_eq]; omega

theorem text_digits (v : Nat) : ∀ c ∈ text 10 .lower v, isDigit c = true := by
  induction v using Nat.strongRecOn with
  | _ v ih =>
    by_cases h : v < 10
    · rw [text_lt v h]
      intro c hc
      rw [List.mem_singleton.mp hc]; exact isDigit_char v h
    · rw [text_ge v (by omega)]
      intro c hc
      rcases List.mem_append.mp hc with hc | hc
      · exact ih (v / 10) (by omega) c hc
      · rw [List.mem_singleton.mp hc]; exact isDigit_char _ (by omega)

theorem decDigits_digits (n v : Nat) : ∀ c ∈ decDigits n v, isDigit c = true := by
  induction n generalizing v with
  | zero => intro c hc; cases hc
  | succ n ih =>
    intro c hc
    unfold decDigits at hc
    rcases List.mem_append.mp hc with hc | hc
    · exact ih _ c hc
    · rw [List.mem_singleton.mp hc]; exact isDigit_char _ (by omega)

theorem text_ne_nil (v : Nat) : text 10 .lower v ≠ [] := by
  intro h
  have := congrArg List.length h
  rw [text_length, List.length_nil] at this
  have := len_pos10 v
  omega

theorem parse_append (xs : List Nat) (d : Nat) (h : d < 10) : parse 10 (xs ++ [0x30 + d]) = parse 10 xs * 10 + d := by
  unfold parse
  rw [List.foldl_append]
  show _ * 10 + digitVal (0x30 + d) = _
  unfold digitVal
  rw [if_pos (by omega)]; omega

theorem parse_decDigits (xs : List Nat) (n v : Nat) : parse 10 (xs ++ decDigits n v) = parse 10 xs * 10 ^ n + v % 10 ^ n := by
  induction n generalizing v with
  | zero => simp [decDigits, Nat.mod_one]
  | succ n ih =>
    unfold decDigits
    rw [← List.append_assoc, parse_append _ _ (by omega), ih, Nat.pow_succ]
    have : v % (10 ^ n * 10) = v / 10 % 10 ^ n * 10 + v % 10 := by
      rw [Nat.mul_comm (10 ^ n), Nat.mod_mul]; omega
    rw [this]; ring

theorem parse_digits (v f : Nat) : parse 10 (text 10 .lower (v / 10 ^ f) ++ decDigits f v) = v := by
  rw [parse_decDigits, (text_parses_back 10 (.inr (.inr (.inl rfl))) .lower _).1]
  exact Nat.div_add_mod' v (10 ^ f)

theorem takeWhile_digits (xs ys : List Nat) (h : ∀ c ∈ xs, isDigit c = true) :
    (xs ++ ys).takeWhile isDigit = xs ++ ys.takeWhile isDigit := by
  induction xs with
  | nil => rfl
  | cons x xs ih =>
    rw [List.cons_append, List.takeWhile_cons, if_pos (h x (by simp)), ih (fun c hc => h c (by simp [hc]))]; rfl

theorem dropWhile_digits (xs ys : List Nat) (h : ∀ c ∈ xs, isDigit c = true) :
    (xs ++ ys).dropWhile isDigit = ys.dropWhile isDigit := by
  induction xs with
  | nil => rfl
  | cons x xs ih =>
    rw [List.cons_append, List.dropWhile_cons, if_pos (h x (by simp)), ih (fun c hc => h c (by simp [hc]))]

/-- what the exponent does not begin with -/
def NotDigit : List Nat → Prop
  | [] => True
  | c :: _ => isDigit c = false ∧ c ≠ 0x2E

theorem NotDigit.take {ys : List Nat} (h : NotDigit ys) : ys.takeWhile isDigit = [] := by
  cases ys with
  | nil => rfl
  | cons y ys => rw [List.takeWhile_cons, h.1]; rfl

theorem NotDigit.drop {ys : List Nat} (h : NotDigit ys) : ys.dropWhile isDigit = ys := by
  cases ys with
  | nil => rfl
  | cons y ys => rw [List.dropWhile_cons, h.1]; rfl

theorem point_notDigit : isDigit 0x2E = false := by decide

/-- the digits, with the point, and an exponent or nothing -/
theorem readUnsigned_body (alt : Bool) (v f : Nat) (rest : List Nat) (hr : NotDigit rest) {x : Int} (hx : readExp rest = some x) :
    readUnsigned (body [0x2E] [] [] false alt v f ++ rest) = some ((v : ℚ) * 10 ^ (x - f)) := by
  rw [body_eq, grouped_plain _ _ _ _ _ (text_length 10 .lower _).symm (by rw [split_nil_length])]
  have hne := text_ne_nil (v / 10 ^ f)
  have hd := text_digits (v / 10 ^ f)
  by_cases hp : alt = true ∨ 0 < f
  · rw [if_pos hp]
    unfold readUnsigned
    rw [List.append_assoc, List.append_assoc, dropWhile_digits _ _ hd, takeWhile_digits _ _ hd]
    have h1 : ([0x2E] ++ (decDigits f v ++ rest)).dropWhile isDigit = 0x2E :: (decDigits f v ++ rest) := by
      rw [List.singleton_append, List.dropWhile_cons, point_notDigit]; rfl
    have h2 : ([0x2E] ++ (decDigits f v ++ rest)).takeWhile isDigit = [] := by
      rw [List.singleton_append, List.takeWhile_cons, point_notDigit]; rfl
    rw [h1, h2]
    dsimp only
    rw [if_pos rfl, takeWhile_digits _ _ (decDigits_digits f v), dropWhile_digits _ _ (decDigits_digits f v), hr.take, hr.drop]
    unfold readMantissa
    rw [List.append_nil, List.append_nil, if_neg (fun h => hne h.1), hx, parse_digits, decDigits_length]; rfl
  · rw [if_neg hp]
    have hf : f = 0 := by omega
    subst hf
    unfold readUnsigned
    have h00 : decDigits 0 v = [] := rfl
    rw [h00, List.append_nil, List.append_nil, dropWhile_digits _ _ hd, takeWhile_digits _ _ hd, hr.drop, hr.take, List.append_nil]
    have hv : parse 10 (text 10 .lower (v / 10 ^ 0)) = v := by
      have := parse_digits v 0
      rwa [decDigits, List.append_nil] at this
    cases rest with
    | nil =>
      dsimp only
      unfold readMantissa
      rw [if_neg (fun h => hne h.1), hx, List.append_nil, hv]; rfl
    | cons c r =>
      dsimp only
      rw [if_neg hr.2]
      unfold readMantissa
      rw [if_neg (fun h => hne h.1), hx, List.append_nil, hv]; rfl

theorem parse_atLeast (n v : Nat) : parse 10 (atLeast n v) = v ∧ (atLeast n v).all isDigit = true ∧ atLeast n v ≠ [] := by
  have hv := (text_parses_back 10 (.inr (.inr (.inl rfl))) .lower v).1
  unfold atLeast
  refine ⟨?_, ?_, fun h => text_ne_nil v (List.append_eq_nil_iff.mp h).2⟩
  · have : ∀ k : Nat, parse 10 (List.replicate k 0x30 ++ text 10 .lower v) = parse 10 (text 10 .lower v) := by
      intro k
      unfold parse
      rw [List.foldl_append]
      congr 1
      induction k with
      | zero => rfl
      | succ k ih => rw [List.replicate_succ, List.foldl_cons]; exact ih
    rw [this, hv]
  · rw [List.all_eq_true]
    intro c hc
    rcases List.mem_append.mp hc with hc | hc
    · rw [(List.mem_replicate.mp hc).2]; decide
    · exact text_digits v c hc

theorem readExp_expText (lc : Lettercase) (x : Int) : readExp (expText lc x) = some x ∧ NotDigit (expText lc x) := by
  obtain ⟨h1, h2, h3⟩ := parse_atLeast 2 x.natAbs
  constructor
  · unfold expText readExp
    dsimp only
    rw [if_pos (by cases lc <;> decide)]
    have hr : readDigits (atLeast 2 x.natAbs) = some x.natAbs := by
      unfold readDigits; rw [if_pos ⟨h3, h2⟩, h1]
    rw [hr]
    by_cases hx : x < 0
    · rw [if_pos hx, if_pos rfl]
      show some (-(x.natAbs : Int)) = some x
      congr 1; omega
    · rw [if_neg hx, if_neg (by decide), if_pos rfl]
      show some ((x.natAbs : Int)) = some x
      congr 1; omega
  · unfold expText
    exact ⟨by cases lc <;> decide, by cases lc <;> decide⟩

/-- the text of a shape is read as its value -/
theorem readUnsigned_number (lc : Lettercase) (alt : Bool) (sh : Shape) :
    readUnsigned (number lc [0x2E] [] [] false alt sh) = some ((sh.digits : ℚ) * 10 ^ (sh.exp.getD 0 - sh.frac)) := by
  unfold number
  cases hx : sh.exp with
  | none =>
    dsimp only
    have := readUnsigned_body alt sh.digits sh.frac [] trivial (x := 0) rfl
    rw [List.append_nil] at this
    exact this
  | some x =>
    obtain ⟨h1, h2⟩ := readExp_expText lc x
    exact readUnsigned_body alt sh.digits sh.frac _ h2 h1

/-- the separator is not used without groups -/
theorem number_sep (lc : Lettercase) (point sep : List Nat) (alt : Bool) (sh : Shape) :
    number lc point sep [] false alt sh = number lc point [] [] false alt sh := by
  unfold number
  cases sh.exp with
  | none =>
    dsimp only
    rw [body_eq, body_eq, grouped_plain _ _ _ _ _ (text_length 10 .lower _).symm (by rw [split_nil_length]),
      grouped_plain _ _ _ _ _ (text_length 10 .lower _).symm (by rw [split_nil_length])]
  | some x => rfl

theorem number_head (lc : Lettercase) (alt : Bool) (sh : Shape) :
    ∃ c r, number lc [0x2E] [] [] false alt sh = c :: r ∧ isDigit c = true := by
  have hb : ∃ c r, body [0x2E] [] [] false alt sh.digits sh.frac = c :: r ∧ isDigit c = true := by
    rw [body_eq, grouped_plain _ _ _ _ _ (text_length 10 .lower _).symm (by rw [split_nil_length])]
    have hd := text_digits (sh.digits / 10 ^ sh.frac)
    cases ht : text 10 .lower (sh.digits / 10 ^ sh.frac) with
    | nil => exact absurd ht (text_ne_nil _)
    | cons c r => rw [ht] at hd; exact ⟨c, _, rfl, hd c (by simp)⟩
  obtain ⟨c, r, h1, h2⟩ := hb
  unfold number
  cases sh.exp with
  | none => exact ⟨c, r, h1, h2⟩
  | some x => dsimp only; rw [h1]; exact ⟨c, _, rfl, h2⟩

theorem readMantissa_zero {int frac rest : List Nat} {q : ℚ} (h : readMantissa int frac rest = some q) :
    readMantissa (0x30 :: int) frac rest = some q := by
  unfold readMantissa at *
  rw [if_neg (by simp)]
  split_ifs at h
  exact h

/-- leading zeros do not matter -/
theorem readUnsigned_zeros {cs : List Nat} {q : ℚ} (h : readUnsigned cs = some q) (z : Nat) :
    readUnsigned (List.replicate z 0x30 ++ cs) = some q := by
  induction z with
  | zero => exact h
  | succ z ih =>
    rw [List.replicate_succ, List.cons_append]
    generalize List.replicate z 0x30 ++ cs = xs at *
    unfold readUnsigned at *
    have hz : isDigit 0x30 = true := by decide
    rw [List.dropWhile_cons, if_pos hz, List.takeWhile_cons, if_pos hz]
    cases hd : xs.dropWhile isDigit with
    | nil => rw [hd] at ih; exact readMantissa_zero ih
    | cons c r =>
      rw [hd] at ih
      dsimp only at ih ⊢
      split_ifs at ih ⊢ <;> exact readMantissa_zero ih

/-- the sign, zeros and the number -/
theorem readNumber_number (lc : Lettercase) (alt neg plus : Bool) (z : Nat) (sh : Shape) :
    readNumber ((if neg then [0x2D] else if plus then [0x2B] else []) ++
        (List.replicate z 0x30 ++ number lc [0x2E] [] [] false alt sh)) =
      some (neg, (sh.digits : ℚ) * 10 ^ (sh.exp.getD 0 - sh.frac)) := by
  have hr := readUnsigned_zeros (readUnsigned_number lc alt sh) z
  cases neg
  · cases plus
    · have hh : ∃ c r, List.replicate z 0x30 ++ number lc [0x2E] [] [] false alt sh = c :: r ∧ isDigit c = true := by
        cases z with
        | zero => exact number_head lc alt sh
        | succ z => exact ⟨0x30, _, rfl, by decide⟩
      obtain ⟨c, r, h1, h2⟩ := hh
      rw [h1] at hr ⊢
      show readNumber (c :: r) = _
      unfold readNumber
      dsimp only
      rw [if_neg, if_neg, hr]
      · rfl
      · rintro rfl; exact absurd h2 (by decide)
      · rintro rfl; exact absurd h2 (by decide)
    · show readNumber (0x2B :: (List.replicate z 0x30 ++ number lc [0x2E] [] [] false alt sh)) = _
      unfold readNumber
      dsimp only
      rw [if_neg (by decide), if_pos rfl, hr]; rfl
  · show readNumber (0x2D :: (List.replicate z 0x30 ++ number lc [0x2E] [] [] false alt sh)) = _
    unfold readNumber
    dsimp only
    rw [if_pos rfl, hr]; rfl

/-- without precision, the value of the shape is the number -/
theorem shape_value (n : Spec.Notation) (alt : Bool) (m : Nat) (e : Int) :
    ((shape [] false n none alt m e).digits : ℚ) * 10 ^ ((shape [] false n none alt m e).exp.getD 0 - (shape [] false n none alt m e).frac) =
      (m : ℚ) * 10 ^ e := by
  have h1 : ((exactFixed m e).digits : ℚ) * 10 ^ ((exactFixed m e).exp.getD 0 - (exactFixed m e).frac : Int) = (m : ℚ) * 10 ^ e := by
    unfold exactFixed
    dsimp only [Option.getD]
    push_cast
    rw [mul_assoc, ← zpow_natCast, ← zpow_add₀ (by norm_num)]
    congr 2
    omega
  have h2 : ((exactSci m e).digits : ℚ) * 10 ^ ((exactSci m e).exp.getD 0 - (exactSci m e).frac : Int) = (m : ℚ) * 10 ^ e := by
    unfold exactSci sciExp
    dsimp only [Option.getD]
    congr 2
    have := len_pos10 m
    push_cast [this]
    ring
  cases n with
  | fixed => exact h1
  | scientific => exact h2
  | general =>
    unfold shape
    dsimp only
    split_ifs
    · exact h2
    · exact h1

end Strf.Float

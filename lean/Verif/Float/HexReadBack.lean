import Verif.Float.HexReadSpec
import Verif.Float.Props
import Verif.Float.ReadBack
import Mathlib.Tactic.Positivity
import Mathlib.Tactic.Linarith
/-
The texts of numbers in hexadecimal notation are read as the numbers.
-/
namespace Strf.Float
open Strf.Float.Spec hiding Notation
open Strf.IntDigits Strf.IntDigits.Spec Strf.Numpunct.Spec

theorem digitVal_char (lc : Lettercase) (d : Nat) (h : d < 16) : digitVal (digitChar lc d) = d := by
  unfold digitVal digitChar
  split_ifs <;> omega

theorem isHexDigit_char (lc : Lettercase) (d : Nat) (h : d < 16) : isHexDigit (digitChar lc d) = true := by
  unfold isHexDigit digitChar
  rw [decide_eq_true_eq]
  split_ifs <;> omega

theorem hexDigits_are (lc : Lettercase) (n v : Nat) : ∀ c ∈ hexDigits lc n v, isHexDigit c = true := by
  induction n generalizing v with
  | zero => intro c hc; cases hc
  | succ n ih =>
    intro c hc
    unfold hexDigits at hc
    rcases List.mem_append.mp hc with hc | hc
    · exact ih _ c hc
    · rw [List.mem_singleton.mp hc]; exact isHexDigit_char _ _ (by omega)

theorem parse_append16 (lc : Lettercase) (xs : List Nat) (d : Nat) (h : d < 16) :
    parse 16 (xs ++ [digitChar lc d]) = parse 16 xs * 16 + d := by
  unfold parse
  rw [List.foldl_append]
  show _ * 16 + digitVal (digitChar lc d) = _
  rw [digitVal_char lc d h]

theorem parse_hexDigits (lc : Lettercase) (xs : List Nat) (n v : Nat) :
    parse 16 (xs ++ hexDigits lc n v) = parse 16 xs * 16 ^ n + v % 16 ^ n := by
  induction n generalizing v with
  | zero => simp [hexDigits, Nat.mod_one]
  | succ n ih =>
    unfold hexDigits
    rw [← List.append_assoc, parse_append16 _ _ _ (by omega), ih, Nat.pow_succ]
    have : v % (16 ^ n * 16) = v / 16 % 16 ^ n * 16 + v % 16 := by
      rw [Nat.mul_comm (16 ^ n), Nat.mod_mul]; omega
    rw [this]; ring

theorem parse_zeros (b z : Nat) (xs : List Nat) : parse b (List.replicate z 0x30 ++ xs) = parse b xs := by
  unfold parse
  rw [List.foldl_append]
  congr 1
  induction z with
  | zero => rfl
  | succ z ih =>
    rw [List.replicate_succ, List.foldl_cons]
    have : 0 * b + digitVal 0x30 = 0 := by rw [Nat.zero_mul]; rfl
    rw [this]; exact ih

theorem takeWhile_hex (xs ys : List Nat) (h : ∀ c ∈ xs, isHexDigit c = true) :
    (xs ++ ys).takeWhile isHexDigit = xs ++ ys.takeWhile isHexDigit := by
  induction xs with
  | nil => rfl
  | cons x xs ih =>
    rw [List.cons_append, List.takeWhile_cons, if_pos (h x (by simp)), ih (fun c hc => h c (by simp [hc]))]; rfl

theorem dropWhile_hex (xs ys : List Nat) (h : ∀ c ∈ xs, isHexDigit c = true) :
    (xs ++ ys).dropWhile isHexDigit = ys.dropWhile isHexDigit := by
  induction xs with
  | nil => rfl
  | cons x xs ih =>
    rw [List.cons_append, List.dropWhile_cons, if_pos (h x (by simp)), ih (fun c hc => h c (by simp [hc]))]

/-- the exponent -/
def binExp (lc : Lettercase) (x : Int) : List Nat :=
  (if lc = .upper then 0x50 else 0x70) :: (if x < 0 then 0x2D else 0x2B) :: text 10 .lower x.natAbs

theorem readBinExp_eq (lc : Lettercase) (x : Int) : readBinExp (binExp lc x) = some x := by
  have hd : readDigits (text 10 .lower x.natAbs) = some x.natAbs := by
    unfold readDigits
    rw [if_pos ⟨text_ne_nil _, List.all_eq_true.mpr (text_digits _)⟩, (text_parses_back 10 (.inr (.inr (.inl rfl))) .lower _).1]
  unfold binExp readBinExp
  dsimp only
  rw [if_pos (by cases lc <;> decide)]
  unfold readSigned
  dsimp only
  by_cases hx : x < 0
  · rw [if_pos hx, if_pos rfl, hd]
    show some (-((x.natAbs : Nat) : Int)) = _
    congr 1; omega
  · rw [if_neg hx, if_neg (by decide), if_pos rfl, hd]
    show some (((x.natAbs : Nat) : Int)) = _
    congr 1; omega

theorem binExp_hex (lc : Lettercase) (x : Int) : (binExp lc x).takeWhile isHexDigit = [] ∧ (binExp lc x).dropWhile isHexDigit = binExp lc x := by
  unfold binExp
  rw [List.takeWhile_cons, List.dropWhile_cons]
  cases lc <;> exact ⟨rfl, rfl⟩

/-- zeros, the digits with the point, and the exponent -/
theorem readHexDigits_text (lc : Lettercase) (alt : Bool) (z v f : Nat) (x : Int) (hv : v / 16 ^ f < 16) :
    readHexDigits (List.replicate z 0x30 ++ ((digitChar lc (v / 16 ^ f) :: (if alt ∨ 0 < f then [0x2E] else [])) ++ hexDigits lc f v ++ binExp lc x)) =
      some ((v : ℚ) / 16 ^ f * 2 ^ x) := by
  have hpref : ∀ c ∈ List.replicate z 0x30 ++ [digitChar lc (v / 16 ^ f)], isHexDigit c = true := by
    intro c hc
    rcases List.mem_append.mp hc with hc | hc
    · rw [List.eq_of_mem_replicate hc]; decide
    · rw [List.mem_singleton.mp hc]; exact isHexDigit_char _ _ hv
  have hparse : parse 16 (List.replicate z 0x30 ++ [digitChar lc (v / 16 ^ f)] ++ hexDigits lc f v) = v := by
    rw [List.append_assoc, parse_zeros, parse_hexDigits]
    have := parse_append16 lc [] (v / 16 ^ f) hv
    rw [List.nil_append] at this
    rw [this]
    show (0 * 16 + v / 16 ^ f) * 16 ^ f + _ = _
    rw [Nat.zero_mul, Nat.zero_add]
    exact Nat.div_add_mod' v (16 ^ f)
  have hne : List.replicate z 0x30 ++ [digitChar lc (v / 16 ^ f)] ≠ [] := by simp
  by_cases hp : alt = true ∨ 0 < f
  · rw [if_pos hp]
    have e : List.replicate z 0x30 ++ ((digitChar lc (v / 16 ^ f) :: [0x2E]) ++ hexDigits lc f v ++ binExp lc x) =
        (List.replicate z 0x30 ++ [digitChar lc (v / 16 ^ f)]) ++ (0x2E :: (hexDigits lc f v ++ binExp lc x)) := by simp
    rw [e]
    unfold readHexDigits
    rw [dropWhile_hex _ _ hpref, takeWhile_hex _ _ hpref]
    have h1 : (0x2E :: (hexDigits lc f v ++ binExp lc x)).dropWhile isHexDigit = 0x2E :: (hexDigits lc f v ++ binExp lc x) := by
      rw [List.dropWhile_cons]; rfl
    have h2 : (0x2E :: (hexDigits lc f v ++ binExp lc x)).takeWhile isHexDigit = [] := by
      rw [List.takeWhile_cons]; rfl
    rw [h1, h2]
    dsimp only
    rw [if_pos rfl, takeWhile_hex _ _ (hexDigits_are lc f v), dropWhile_hex _ _ (hexDigits_are lc f v), (binExp_hex lc x).1, (binExp_hex lc x).2]
    unfold readHexMantissa
    rw [List.append_nil, List.append_nil, if_neg (fun h => hne h.1), readBinExp_eq, hparse, hexDigits_length]; rfl
  · rw [if_neg hp]
    have hf : f = 0 := by omega
    subst hf
    have e : List.replicate z 0x30 ++ ((digitChar lc (v / 16 ^ 0) :: []) ++ hexDigits lc 0 v ++ binExp lc x) =
        (List.replicate z 0x30 ++ [digitChar lc (v / 16 ^ 0)]) ++ binExp lc x := by simp [hexDigits]
    have h0 : hexDigits lc 0 v = [] := rfl
    rw [h0, List.append_nil] at hparse
    rw [e]
    unfold readHexDigits
    rw [dropWhile_hex _ _ hpref, takeWhile_hex _ _ hpref, (binExp_hex lc x).1, (binExp_hex lc x).2, List.append_nil]
    have hb : ∃ c r, binExp lc x = c :: r ∧ c ≠ 0x2E := ⟨_, _, rfl, by cases lc <;> decide⟩
    obtain ⟨c, r, h1, h2⟩ := hb
    have hr := readBinExp_eq lc x
    rw [h1] at hr ⊢
    dsimp only
    rw [if_neg h2]
    unfold readHexMantissa
    rw [List.append_nil, if_neg (fun h => hne h.1), hr, hparse]; rfl

/-- the value of the digits printed -/
def hexShown (lead frac : Nat) (x : Int) (prec : Option Nat) : ℚ :=
  ((hexShape lead frac prec).1 : ℚ) / 16 ^ (hexShape lead frac prec).2 * 2 ^ x

theorem readHexNumber_text (lc : Lettercase) (alt neg plus : Bool) (z lead frac : Nat) (x : Int) (prec : Option Nat) (hlead : lead ≤ 1)
    (hc : HexCarryOk lead frac prec) :
    readHexNumber ((if neg then [0x2D] else if plus then [0x2B] else []) ++ hexBase lc ++ List.replicate z 0x30 ++
        hexText lc [0x2E] alt lead frac x prec) = some (neg, hexShown lead frac x prec) := by
  have hv : (hexShape lead frac prec).1 / 16 ^ (hexShape lead frac prec).2 < 16 := by
    unfold HexCarryOk at hc; rw [hc]; omega
  have ht := readHexDigits_text lc alt z _ _ x hv
  have hu : readHexUnsigned (hexBase lc ++ (List.replicate z 0x30 ++ hexText lc [0x2E] alt lead frac x prec)) =
      some (hexShown lead frac x prec) := by
    unfold readHexUnsigned hexBase
    show (if _ then readHexDigits (List.replicate z 0x30 ++ hexText lc [0x2E] alt lead frac x prec) else none) = _
    rw [if_pos (by cases lc <;> decide)]
    exact ht
  rw [List.append_assoc, List.append_assoc]
  have hb : ∀ r, hexBase lc ++ r = 0x30 :: ([if lc = .upper then 0x58 else 0x78] ++ r) := fun r => rfl
  cases neg
  · cases plus
    · rw [hb] at hu ⊢
      show readHexNumber (0x30 :: _) = _
      unfold readHexNumber
      dsimp only
      rw [if_neg (by decide), if_neg (by decide), hu]; rfl
    · show readHexNumber (0x2B :: (hexBase lc ++ (List.replicate z 0x30 ++ hexText lc [0x2E] alt lead frac x prec))) = _
      unfold readHexNumber
      dsimp only
      rw [if_neg (by decide), if_pos rfl, hu]; rfl
  · show readHexNumber (0x2D :: (hexBase lc ++ (List.replicate z 0x30 ++ hexText lc [0x2E] alt lead frac x prec))) = _
    unfold readHexNumber
    dsimp only
    rw [if_pos rfl, hu]; rfl

theorem stripHex_value (f : Nat) : ∀ v, ((stripHex v f).1 : ℚ) / 16 ^ (stripHex v f).2 = (v : ℚ) / 16 ^ f := by
  induction f with
  | zero => intro v; rfl
  | succ f ih =>
    intro v
    rw [stripHex]
    split_ifs with h
    · rw [ih]
      have : v = v / 16 * 16 := by omega
      have e : (v : ℚ) = ((v / 16 : Nat) : ℚ) * 16 := by exact_mod_cast this
      rw [e, pow_succ]
      field_simp
    · rfl

/-- without precision, or with enough of it, the digits are all there -/
theorem hexShown_exact (lead frac : Nat) (x : Int) (prec : Option Nat) (h : ∀ p, prec = some p → 13 ≤ p) :
    hexShown lead frac x prec = ((lead : ℚ) + (frac : ℚ) / 2 ^ 52) * 2 ^ x := by
  unfold hexShown
  congr 1
  have h16 : (16 : ℚ) ^ 13 = 2 ^ 52 := by norm_num
  have key : ((lead * 16 ^ 13 + frac : Nat) : ℚ) / 16 ^ 13 = (lead : ℚ) + (frac : ℚ) / 2 ^ 52 := by
    push_cast
    rw [add_div, h16]
    field_simp
    norm_num
  cases prec with
  | none =>
    have : hexShape lead frac none = stripHex (lead * 16 ^ 13 + frac) 13 := by unfold hexShape; rfl
    rw [this, stripHex_value, key]
  | some p =>
    have hp := h p rfl
    have : hexShape lead frac (some p) = ((lead * 16 ^ 13 + frac) * 16 ^ (p - 13), p) := by
      unfold hexShape; exact if_neg (by omega)
    rw [this, ← key]
    have h2 : (16 : ℚ) ^ p = 16 ^ (p - 13) * 16 ^ 13 := by rw [← pow_add, Nat.sub_add_cancel hp]
    dsimp only
    rw [h2]
    push_cast
    field_simp

/-- with less, the number is rounded to the nearest that has these digits -/
theorem hexShown_near (lead frac : Nat) (x : Int) (p : Nat) (h : p < 13) :
    |hexShown lead frac x (some p) - ((lead : ℚ) + (frac : ℚ) / 2 ^ 52) * 2 ^ x| ≤ 1 / 2 * (1 / 16 ^ p) * 2 ^ x := by
  have h16 : (16 : ℚ) ^ 13 = 2 ^ 52 := by norm_num
  have hs : hexShape lead frac (some p) = (roundHex (lead * 16 ^ 13 + frac) (13 - p), p) := by
    unfold hexShape; exact if_pos h
  unfold hexShown
  rw [hs]
  dsimp only
  have hx : (0 : ℚ) < 2 ^ x := by positivity
  rw [← sub_mul, abs_mul, abs_of_pos hx]
  apply mul_le_mul_of_nonneg_right _ hx.le
  have key : (lead : ℚ) + (frac : ℚ) / 2 ^ 52 = ((lead * 16 ^ 13 + frac : Nat) : ℚ) / 16 ^ 13 := by
    push_cast
    rw [add_div, h16]
    field_simp
    norm_num
  rw [key]
  generalize lead * 16 ^ 13 + frac = v
  have hp : (16 : ℚ) ^ 13 = 16 ^ p * 16 ^ (13 - p) := by rw [← pow_add]; congr 1; omega
  rw [hp]
  generalize hU : 13 - p = n
  have hn : (0 : ℚ) < 16 ^ n := by positivity
  have hq : (0 : ℚ) < 16 ^ p := by positivity
  have e : (roundHex v n : ℚ) / 16 ^ p - (v : ℚ) / (16 ^ p * 16 ^ n) = ((roundHex v n : ℚ) * 16 ^ n - v) / 16 ^ n * (1 / 16 ^ p) := by
    field_simp
  rw [e, abs_mul, abs_of_pos (by positivity : (0 : ℚ) < 1 / 16 ^ p)]
  apply mul_le_mul_of_nonneg_right _ (by positivity)
  rw [abs_div, abs_of_pos hn, div_le_iff₀ hn]
  have hdm : v / 16 ^ n * 16 ^ n + v % 16 ^ n = v := Nat.div_add_mod' v _
  have hlt : v % 16 ^ n < 16 ^ n := Nat.mod_lt _ (by positivity)
  have hdmQ : ((v / 16 ^ n : Nat) : ℚ) * 16 ^ n + ((v % 16 ^ n : Nat) : ℚ) = (v : ℚ) := by exact_mod_cast hdm
  have hltQ : ((v % 16 ^ n : Nat) : ℚ) < 16 ^ n := by exact_mod_cast hlt
  unfold roundHex
  dsimp only
  split_ifs with hc
  · have : 2 * (v % 16 ^ n) ≤ 16 ^ n := by omega
    have : 2 * ((v % 16 ^ n : Nat) : ℚ) ≤ 16 ^ n := by exact_mod_cast this
    have h0 : (0 : ℚ) ≤ ((v % 16 ^ n : Nat) : ℚ) := by positivity
    rw [abs_le]; constructor <;> linarith
  · have : 16 ^ n ≤ 2 * (v % 16 ^ n) := by omega
    have : (16 : ℚ) ^ n ≤ 2 * ((v % 16 ^ n : Nat) : ℚ) := by exact_mod_cast this
    push_cast
    rw [abs_le]; constructor <;> nlinarith
end Strf.Float

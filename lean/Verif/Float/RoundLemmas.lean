import Verif.Float.RoundSpec
import Verif.Float.InitPrec
import Verif.Float.ReadBack
import Mathlib.Tactic.Positivity
import Mathlib.Tactic.Linarith
/-
The value of the digits printed with a precision.
-/
namespace Strf.Float
open Strf.Float.Spec hiding Notation
open Strf.IntDigits Strf.IntDigits.Spec Strf.Numpunct.Spec

theorem roundAt_rounded (m : Nat) (e q : Int) : Rounded (10 ^ q) ((m : ℚ) * 10 ^ e) ((roundAt m e q : ℚ) * 10 ^ q) := by
  refine ⟨roundAt m e q, rfl, ?_⟩
  have hq : (0 : ℚ) < 10 ^ q := by positivity
  unfold roundAt
  split_ifs with h
  · have : ((m * 10 ^ (e - q).toNat : Nat) : ℚ) * 10 ^ q = (m : ℚ) * 10 ^ e := by
      push_cast
      rw [mul_assoc, ← zpow_natCast, ← zpow_add₀ (by norm_num)]
      congr 2; omega
    rw [this, sub_self, abs_zero]
    exact ⟨by positivity, fun h => absurd h (by positivity : (0:ℚ) ≠ 10 ^ q / 2)⟩
  · dsimp only
    obtain ⟨k, hk⟩ : ∃ k : Nat, q = e + k := ⟨(q - e).toNat, by omega⟩
    have hk' : (q - e).toNat = k := by omega
    rw [hk']
    have he : (0 : ℚ) < 10 ^ e := by positivity
    have hqe : (10 : ℚ) ^ q = 10 ^ k * 10 ^ e := by rw [hk, add_comm, zpow_add₀ (by norm_num), zpow_natCast]
    have hU : (0 : ℚ) < 10 ^ k := by positivity
    have hdm : m / 10 ^ k * 10 ^ k + m % 10 ^ k = m := Nat.div_add_mod' m _
    have hlt : m % 10 ^ k < 10 ^ k := Nat.mod_lt _ (by positivity)
    have hdmQ : ((m / 10 ^ k : Nat) : ℚ) * 10 ^ k + ((m % 10 ^ k : Nat) : ℚ) = (m : ℚ) := by exact_mod_cast hdm
    have hltQ : ((m % 10 ^ k : Nat) : ℚ) < 10 ^ k := by exact_mod_cast hlt
    have h0 : (0 : ℚ) ≤ ((m % 10 ^ k : Nat) : ℚ) := by positivity
    rw [hqe]
    have red : ∀ n : Nat, (n : ℚ) * (10 ^ k * 10 ^ e) - (m : ℚ) * 10 ^ e = ((n : ℚ) * 10 ^ k - m) * 10 ^ e := by intro n; ring
    have red2 : (10 : ℚ) ^ k * 10 ^ e / 2 = 10 ^ k / 2 * 10 ^ e := by ring
    rw [red, red2, abs_mul, abs_of_pos he]
    constructor
    · apply mul_le_mul_of_nonneg_right _ he.le
      split_ifs with hc
      · have : 2 * (m % 10 ^ k) ≤ 10 ^ k := by omega
        have : 2 * ((m % 10 ^ k : Nat) : ℚ) ≤ 10 ^ k := by exact_mod_cast this
        rw [abs_le]; constructor <;> linarith
      · have : 10 ^ k ≤ 2 * (m % 10 ^ k) := by omega
        have : (10 : ℚ) ^ k ≤ 2 * ((m % 10 ^ k : Nat) : ℚ) := by exact_mod_cast this
        push_cast
        rw [abs_le]; constructor <;> nlinarith
    · intro heq
      have heq := mul_right_cancel₀ he.ne' heq
      split_ifs at heq ⊢ with hc
      · have e1 : ((m / 10 ^ k : Nat) : ℚ) * 10 ^ k - m = -((m % 10 ^ k : Nat) : ℚ) := by linarith
        rw [e1, abs_neg, abs_of_nonneg h0] at heq
        have : 2 * ((m % 10 ^ k : Nat) : ℚ) = 10 ^ k := by linarith
        have : 2 * (m % 10 ^ k) = 10 ^ k := by exact_mod_cast this
        rcases hc with hc | hc
        · omega
        · exact hc.2
      · push_cast at heq
        have e1 : (((m / 10 ^ k : Nat) : ℚ) + 1) * 10 ^ k - m = 10 ^ k - ((m % 10 ^ k : Nat) : ℚ) := by linarith
        rw [e1, abs_of_nonneg (by linarith)] at heq
        have : 2 * ((m % 10 ^ k : Nat) : ℚ) = 10 ^ k := by linarith
        have : 2 * (m % 10 ^ k) = 10 ^ k := by exact_mod_cast this
        have := fun h => hc (.inr ⟨this, h⟩)
        omega

/-- a carry does not change the value -/
theorem significant_value (n m : Nat) (e : Int) (hn : 1 ≤ n) :
    ((significant n m e).1 : ℚ) * 10 ^ ((significant n m e).2 - (n - 1 : Nat)) =
      (roundAt m e (sciExp m e - (n - 1 : Nat)) : ℚ) * 10 ^ (sciExp m e - (n - 1 : Nat)) := by
  have hc : ((n - 1 : Nat) : Int) = (n : Int) - 1 := by omega
  unfold significant
  dsimp only
  rw [hc]
  split_ifs with h
  · rw [h]
    push_cast
    rw [← zpow_natCast, ← zpow_natCast, ← zpow_add₀ (by norm_num), ← zpow_add₀ (by norm_num)]
    congr 1
    omega
  · rfl

theorem strip_value (f : Nat) : ∀ v : Nat, ((strip v f).1 : ℚ) * 10 ^ (-(strip v f).2 : Int) = (v : ℚ) * 10 ^ (-(f : Int)) := by
  induction f with
  | zero => intro v; rfl
  | succ f ih =>
    intro v
    rw [strip]
    split_ifs with h
    · rw [ih]
      have : v = v / 10 * 10 := by omega
      have e : (v : ℚ) = ((v / 10 : Nat) : ℚ) * 10 := by exact_mod_cast this
      rw [e]
      have : (10 : ℚ) ^ (-(f : Int)) = 10 * 10 ^ (-((f + 1 : Nat) : Int)) := by
        rw [← zpow_one_add₀ (by norm_num)]; congr 1; omega
      rw [this]; ring
    · rfl

/-- the value of the digits printed -/
theorem shape_rounded (n : Spec.Notation) (alt : Bool) (prec m : Nat) (e : Int) :
    Rounded (10 ^ lastPlace n prec (sciExp m e)) ((m : ℚ) * 10 ^ e)
      (((shape [] false n (some prec) alt m e).digits : ℚ) *
        10 ^ ((shape [] false n (some prec) alt m e).exp.getD 0 - (shape [] false n (some prec) alt m e).frac)) := by
  cases n with
  | fixed =>
    have := roundAt_rounded m e (-(prec : Int))
    unfold shape lastPlace
    dsimp only [Option.getD]
    rw [Int.zero_sub]
    exact this
  | scientific =>
    have h := significant_value (prec + 1) m e (by omega)
    rw [Nat.add_sub_cancel] at h
    unfold shape lastPlace
    dsimp only [Option.getD]
    rw [h]
    exact roundAt_rounded m e _
  | general =>
    have h := significant_value (max prec 1) m e (by omega)
    have hr := roundAt_rounded m e (sciExp m e - (max prec 1 - 1 : Nat))
    rw [← h] at hr
    unfold shape lastPlace
    dsimp only
    generalize hsig : significant (max prec 1) m e = sig at hr ⊢
    obtain ⟨v, x⟩ := sig
    dsimp only at hr ⊢
    have key : ((if x < -4 ∨ ((max prec 1 : Nat) : Int) ≤ x then some x else none).getD 0 : Int) -
        ((if x < -4 ∨ ((max prec 1 : Nat) : Int) ≤ x then max prec 1 - 1 else (((max prec 1 : Nat) : Int) - 1 - x).toNat : Nat) : Int) =
        x - (max prec 1 - 1 : Nat) := by
      split_ifs with hc
      · rfl
      · show (0 : Int) - _ = _
        omega
    revert key
    generalize ((if x < -4 ∨ ((max prec 1 : Nat) : Int) ≤ x then max prec 1 - 1 else (((max prec 1 : Nat) : Int) - 1 - x).toNat : Nat)) = fr
    generalize (if x < -4 ∨ ((max prec 1 : Nat) : Int) ≤ x then some x else none) = ex
    intro key
    cases alt
    · rw [if_neg (by decide)]
      dsimp only
      have e1 : ((strip v fr).1 : ℚ) * 10 ^ (ex.getD 0 - ((strip v fr).2 : Int)) = (v : ℚ) * 10 ^ (ex.getD 0 - (fr : Int)) := by
        rw [sub_eq_add_neg, sub_eq_add_neg, zpow_add₀ (by norm_num), zpow_add₀ (by norm_num), mul_left_comm, strip_value, mul_left_comm]
      rw [e1, key]
      exact hr
    · rw [if_pos rfl]
      dsimp only
      rw [key]
      exact hr

/-- a number rounded is the nearest to another number as well, if no tie separates them -/
theorem Rounded.other {u s q v : ℚ} (hu : 0 < u) (hs : 0 ≤ s) (hv : 0 ≤ v) (h : Rounded u s q) (ht : NoTieBetween u s v) : Rounded u v q := by
  obtain ⟨k, rfl, h1, h2⟩ := h
  rw [abs_le] at h1
  have hup := ht k
  have hlo : ∀ j : Nat, k = j + 1 → ((j : ℚ) + 1 / 2) * u < min s v ∨ max s v < ((j : ℚ) + 1 / 2) * u := fun j _ => ht j
  have hmin1 := min_le_left s v
  have hmin2 := min_le_right s v
  have hmax1 := le_max_left s v
  have hmax2 := le_max_right s v
  have hU : max s v < ((k : ℚ) + 1 / 2) * u := by
    rcases hup with h | h
    · nlinarith
    · exact h
  have hL : ((k : ℚ) - 1 / 2) * u < v := by
    cases k with
    | zero => push_cast; nlinarith
    | succ j =>
      rcases hlo j rfl with h | h
      · push_cast; nlinarith
      · push_cast at h1; nlinarith
  have hlt : |(k : ℚ) * u - v| < u / 2 := by
    rw [abs_lt]
    constructor <;> nlinarith
  exact ⟨k, rfl, hlt.le, fun he => absurd he hlt.ne⟩

end Strf.Float

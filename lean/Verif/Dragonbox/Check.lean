import Verif.Dragonbox.Zeros
import Verif.Dragonbox.Farey
/-
What is checked, by evaluation in the kernel, for every binary exponent: 254 of float and 2046 of double.
-/
namespace Strf.Dragonbox
open Strf.Float

/-- the binary exponent of the subnormal numbers and of the smallest normal ones -/
def minExp (T : FloatT) : Int := 1 - T.bias - T.mSize
/-- how many binary exponents there are -/
def expCount (T : FloatT) : Nat := 2 ^ T.eSize - 2

/-- `k = -minus_k` of compute_nearest_normal -/
def kOf (T : FloatT) (e : Int) : Int := -(floorLog10Pow2 e - kappa T)
/-- `beta_minus_1` -/
def betaOf (T : FloatT) (e : Int) : Int := e + floorLog2Pow10 (kOf T e)

/-- the exponents of 2 and 5 in `2^(e-1)·10^k` -/
def p2Of (T : FloatT) (e : Int) : Int := e - 1 + kOf T e

/-- `2^(e-1)·10^k` as a fraction -/
def num (T : FloatT) (e : Int) : Nat := 2 ^ (p2Of T e).toNat * 5 ^ (kOf T e).toNat
/-- `2^(e-1)·10^k` as a fraction -/
def den (T : FloatT) (e : Int) : Nat := 2 ^ (-p2Of T e).toNat * 5 ^ (-kOf T e).toNat

/-- evaluate `n` before going on -/
def force (n : Nat) (f : Nat → α) : α := match n with | 0 => f 0 | k + 1 => f (k + 1)
theorem force_eq (n : Nat) (f : Nat → α) : force n f = f n := by cases n <;> rfl

/-- The neighbours of `X/D` among the fractions with denominators up to `N` (walking down the Stern–Brocot tree).
Nothing is proved about this function: its result is checked. -/
def farey (X D N : Nat) : Nat → Nat → Nat → Nat → Nat → Nat × Nat × Nat × Nat
  | 0, a, b, c, d => (a, b, c, d)
  | fuel + 1, a, b, c, d =>
    if N < b + d then (a, b, c, d)
    else
      force (X * b - a * D) fun q => force (c * D - X * d) fun p =>
      force (if d = 0 then q / p else min (q / p) ((N - b) / d)) fun t =>
      force (a + t * c) fun a => force (b + t * d) fun b =>
      if N < b + d then (a, b, c, d)
      else
        force (X * b - a * D) fun q =>
        force (if q = 0 then (N - d) / b else min ((p - 1) / q) ((N - d) / b)) fun t =>
        force (c + t * a) fun c => force (d + t * b) fun d => farey X D N fuel a b c d

/-- the greatest factor that is ever multiplied with a cache entry is less than this -/
def bound (T : FloatT) : Nat := 2 ^ (T.mSize + 2)

/-- `2^(e-1)·10^k` and its approximation are between the same neighbours -/
def approxCheck (T : FloatT) (e : Int) : Bool :=
  let X := num T e
  let D := den T e
  let E := entry T (getCache T (kOf T e)) * 2 ^ (betaOf T e).toNat
  let f := farey X D (bound T) 64 0 1 1 0
  f.2.1 * f.2.2.1 == f.1 * f.2.2.2 + 1 && Nat.blt 0 f.2.1 && Nat.blt (bound T) (f.2.1 + f.2.2.2) &&
    Nat.ble (f.1 * D) (X * f.2.1) && Nat.blt (X * f.2.2.2) (f.2.2.1 * D) &&
    Nat.ble (f.1 * 2 ^ cacheBits T) (E * f.2.1) && Nat.blt (E * f.2.2.2) (f.2.2.1 * 2 ^ cacheBits T)

/-- the ranges of `k`, `beta` and `delta` -/
structure RangesOk (T : FloatT) (e : Int) : Prop where
  k1 : minK T ≤ kOf T e
  k2 : kOf T e ≤ maxK T
  entry : EntryOk T (getCache T (kOf T e))
  b1 : 1 ≤ betaOf T e
  b2 : betaOf T e ≤ 9
  shift : bound T * 2 ^ (betaOf T e).toNat ≤ 2 ^ T.bits
  d1 : 10 ^ kappa T * den T e ≤ 2 * num T e
  d2 : 2 * num T e < 10 ^ (kappa T + 1) * den T e

/-- the ranges of the exponent in is_product_integer -/
structure CasesOk (T : FloatT) (e : Int) : Prop where
  h1 : e < halfLower T → p2Of T e < 0
  h2 : halfLower T ≤ e → e ≤ halfUpper T → 0 ≤ p2Of T e ∧ 0 ≤ kOf T e
  h3 : by5Threshold T < e → kOf T e < 0 ∧ bound T < 5 ^ (-kOf T e).toNat ∧ halfUpper T < e
  h4 : halfUpper T < e → e ≤ by5Threshold T → kOf T e ≤ 0 ∧ 0 ≤ p2Of T e ∧ (-kOf T e).toNat < tableSize T
  f1 : fcLower T ≤ e → e ≤ fcUpper T → -1 ≤ p2Of T e ∧ 0 ≤ kOf T e
  f2 : e < fcLower T → p2Of T e < 0 ∧ 0 ≤ kOf T e

instance (T : FloatT) (e : Int) : Decidable (RangesOk T e) :=
  decidable_of_iff (minK T ≤ kOf T e ∧ kOf T e ≤ maxK T ∧ EntryOk T (getCache T (kOf T e)) ∧ 1 ≤ betaOf T e ∧ betaOf T e ≤ 9 ∧
    bound T * 2 ^ (betaOf T e).toNat ≤ 2 ^ T.bits ∧ 10 ^ kappa T * den T e ≤ 2 * num T e ∧
    2 * num T e < 10 ^ (kappa T + 1) * den T e)
    ⟨fun ⟨a, b, c, d, e, f, g, h⟩ => ⟨a, b, c, d, e, f, g, h⟩, fun ⟨a, b, c, d, e, f, g, h⟩ => ⟨a, b, c, d, e, f, g, h⟩⟩

instance (T : FloatT) (e : Int) : Decidable (CasesOk T e) :=
  decidable_of_iff ((e < halfLower T → p2Of T e < 0) ∧ (halfLower T ≤ e → e ≤ halfUpper T → 0 ≤ p2Of T e ∧ 0 ≤ kOf T e) ∧
    (by5Threshold T < e → kOf T e < 0 ∧ bound T < 5 ^ (-kOf T e).toNat ∧ halfUpper T < e) ∧
    (halfUpper T < e → e ≤ by5Threshold T → kOf T e ≤ 0 ∧ 0 ≤ p2Of T e ∧ (-kOf T e).toNat < tableSize T) ∧
    (fcLower T ≤ e → e ≤ fcUpper T → -1 ≤ p2Of T e ∧ 0 ≤ kOf T e) ∧ (e < fcLower T → p2Of T e < 0 ∧ 0 ≤ kOf T e))
    ⟨fun ⟨a, b, c, d, e, f⟩ => ⟨a, b, c, d, e, f⟩, fun ⟨a, b, c, d, e, f⟩ => ⟨a, b, c, d, e, f⟩⟩

/-- the whole check of an exponent -/
def check (T : FloatT) (i : Nat) : Bool :=
  approxCheck T (minExp T + i) && decide (RangesOk T (minExp T + i)) && decide (CasesOk T (minExp T + i))

theorem check_float : ∀ i < 254, check .float i = true := by decide +kernel

set_option maxRecDepth 10000 in
theorem check_double : ∀ i < 2046, check .double i = true := by decide +kernel

end Strf.Dragonbox

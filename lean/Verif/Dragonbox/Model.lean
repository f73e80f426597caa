import Verif.Float.Types
import Verif.Dragonbox.Tables
/-
include/strf/detail/dragonbox.hpp: `dragonbox::to_decimal<float>` and `<double>` with the policies the library uses
(3261–3339: nearest_to_even, to_even, remove trailing zeros, full cache). Line numbers without a file name are those of
this file.

Unsigned integers are natural numbers, with the reductions modulo 2^32 or 2^64 written where the C++ type makes them.
`int` is `Int` (`regular_in_bounds`, `power_in_bounds` in Props.lean: the products of `log::compute` fit). The operations on wide integers are
those of the portable branches of the preprocessor (545–557, 569–581, 509–521, 595–606); the other branches use compiler
intrinsics for the same operations. `countr_zero` (364–459) is the number of trailing zero bits. STRF_ASSERT is not
executed. `carrier_uint` is `uint32_t` for float and `uint64_t` for double.
-/
namespace Strf.Dragonbox
open Strf.Float

/-- conversion to uint32_t -/
def u32 (x : Nat) : Nat := x % 2 ^ 32
/-- conversion to uint64_t -/
def u64 (x : Nat) : Nat := x % 2 ^ 64
/-- conversion to carrier_uint -/
def cu (T : FloatT) (x : Nat) : Nat := x % 2 ^ T.bits
/-- `a - b` of uint32_t -/
def sub32 (a b : Nat) : Nat := (a + 2 ^ 32 - b) % 2 ^ 32
/-- `a - b` of uint64_t -/
def sub64 (a b : Nat) : Nat := (a + 2 ^ 64 - b) % 2 ^ 64
/-- `a - b` of carrier_uint -/
def subC (T : FloatT) (a b : Nat) : Nat := (a + 2 ^ T.bits - b) % 2 ^ T.bits

/-! ## Wide multiplication -/

/-- dragonbox.hpp 525–531 -/
def umul64 (x y : Nat) : Nat := u64 (u32 x * u32 y)

/-- dragonbox.hpp 535–557: (high, low) -/
def umul128 (x y : Nat) : Nat × Nat :=
  let a := u32 (x / 2 ^ 32)
  let b := u32 x
  let c := u32 (y / 2 ^ 32)
  let d := u32 y
  let ac := umul64 a c
  let bc := umul64 b c
  let ad := umul64 a d
  let bd := umul64 b d
  let intermediate := u64 (bd / 2 ^ 32 + u32 ad + u32 bc)
  (u64 (ac + intermediate / 2 ^ 32 + ad / 2 ^ 32 + bc / 2 ^ 32), u64 (u64 (intermediate * 2 ^ 32) + u32 bd))

/-- dragonbox.hpp 560–581 -/
def umul128Upper64 (x y : Nat) : Nat :=
  let a := u32 (x / 2 ^ 32)
  let b := u32 x
  let c := u32 (y / 2 ^ 32)
  let d := u32 y
  let ac := umul64 a c
  let bc := umul64 b c
  let ad := umul64 a d
  let bd := umul64 b d
  let intermediate := u64 (bd / 2 ^ 32 + u32 ad + u32 bc)
  u64 (ac + intermediate / 2 ^ 32 + ad / 2 ^ 32 + bc / 2 ^ 32)

/-- dragonbox.hpp 509–521 `uint128::operator+=(uint64_t)` -/
def addAssign (x : Nat × Nat) (n : Nat) : Nat × Nat :=
  let sum := u64 (x.2 + n)
  (u64 (x.1 + if sum < x.2 then 1 else 0), sum)

/-- dragonbox.hpp 584–588; `y` is (high, low) -/
def umul192Upper64 (x : Nat) (y : Nat × Nat) : Nat := (addAssign (umul128 x y.1) (umul128Upper64 x y.2)).1

/-- dragonbox.hpp 591–607 -/
def umul96Upper32 (x y : Nat) : Nat :=
  let bc := umul64 x (u32 (y / 2 ^ 32))
  let bd := umul64 x (u32 y)
  let intermediate := u64 (bd / 2 ^ 32 + bc)
  u32 (intermediate / 2 ^ 32)

/-- dragonbox.hpp 611–615 -/
def umul192Middle64 (x : Nat) (y : Nat × Nat) : Nat := u64 (u64 (x * y.1) + umul128Upper64 x y.2)

/-- dragonbox.hpp 618–620 -/
def umul96Lower64 (x y : Nat) : Nat := u64 (x * y)

/-! ## Logarithms -/

/-- dragonbox.hpp 664–679 `floor_shift::value` -/
def floorShift (int frac shift : Nat) : Nat := if shift = 0 then int else (int <<< shift) ||| (frac >>> (64 - shift))

/-- dragonbox.hpp 681–694 `compute`: `>>` of a negative int rounds down -/
def logCompute (cInt cFrac shift sInt sFrac : Nat) (e : Int) : Int :=
  (e * (floorShift cInt cFrac shift : Int) - (floorShift sInt sFrac shift : Int)) / 2 ^ shift

/-- dragonbox.hpp 725–731 -/
def floorLog10Pow2 (e : Int) : Int := logCompute 0 0x4d104d427de7fbcc 22 0 0 e
/-- dragonbox.hpp 733–739 -/
def floorLog2Pow10 (e : Int) : Int := logCompute 3 0x5269e12f346e2bf9 19 0 0 e
/-- dragonbox.hpp 741–747 -/
def floorLog5Pow2 (e : Int) : Int := logCompute 0 0x6e40d1a4143dcb94 20 0 0 e
/-- dragonbox.hpp 749–756 -/
def floorLog5Pow2MinusLog5_3 (e : Int) : Int := logCompute 0 0x6e40d1a4143dcb94 20 0 0xaebf47915d443b24 e
/-- dragonbox.hpp 758–765 -/
def floorLog10Pow2MinusLog10_4over3 (e : Int) : Int := logCompute 0 0x4d104d427de7fbcc 22 0 0x1ffbfc2bbc780375 e

/-- dragonbox.hpp 648–657 `count_factors<a>` (the fuel is not less than the count) -/
def countFactors (a : Nat) : Nat → Nat → Nat
  | 0, _ => 0
  | fuel + 1, n => if n % a = 0 then countFactors a fuel (n / a) + 1 else 0

/-! ## Divisibility -/

/-- dragonbox.hpp 780–784 -/
def modInv32 : List Nat := [0x1, 0xcccccccd, 0xc28f5c29, 0x26e978d5, 0x3afb7e91, 0xbcbe61d, 0x68c26139, 0xae8d46a5,
  0x22e90e21, 0x3a2e9c6d, 0x3ed61f49]
/-- dragonbox.hpp 791–794 -/
def maxQuotients32 : List Nat := [0xffffffff, 0x33333333, 0xa3d70a3, 0x20c49ba, 0x68db8b, 0x14f8b5, 0x431bd, 0xd6bf,
  0x2af3, 0x897, 0x1b7]
/-- dragonbox.hpp 805–814 -/
def modInv64 : List Nat := [0x1, 0xcccccccccccccccd, 0x8f5c28f5c28f5c29, 0x1cac083126e978d5, 0xd288ce703afb7e91,
  0x5d4e8fb00bcbe61d, 0x790fb65668c26139, 0xe5032477ae8d46a5, 0xc767074b22e90e21, 0x8e47ce423a2e9c6d,
  0x4fa7f60d3ed61f49, 0xfee64690c913975, 0x3662e0e1cf503eb1, 0xa47a2cf9f6433fbd, 0x54186f653140a659,
  0x7738164770402145, 0xe4a4d1417cd9a041, 0xc75429d9e5c5200d, 0xc1773b91fac10669, 0x26b172506559ce15,
  0xd489e3a9addec2d1, 0x90e860bb892c8d5d, 0x502e79bf1b6f4f79, 0xdcd618596be30fe5]
/-- dragonbox.hpp 820–827 -/
def maxQuotients64 : List Nat := [0xffffffffffffffff, 0x3333333333333333, 0xa3d70a3d70a3d70, 0x20c49ba5e353f7c,
  0x68db8bac710cb2, 0x14f8b588e368f0, 0x431bde82d7b63, 0xd6bf94d5e57a, 0x2af31dc46118, 0x89705f4136b, 0x1b7cdfd9d7b,
  0x57f5ff85e5, 0x119799812d, 0x384b84d09, 0xb424dc35, 0x24075f3d, 0x734aca5, 0x170ef54, 0x49c977, 0xec1e4, 0x2f394,
  0x971d, 0x1e39, 0x60b]

/-- dragonbox.hpp 779, 803 -/
def modInv (T : FloatT) (i : Nat) : Nat := (match T with | .float => modInv32 | .double => modInv64).getD i 0
/-- dragonbox.hpp 789, 818 -/
def maxQuotients (T : FloatT) (i : Nat) : Nat := (match T with | .float => maxQuotients32 | .double => maxQuotients64).getD i 0

/-- dragonbox.hpp 832–839, `UInt` being carrier_uint -/
def divisibleByPowerOf5 (T : FloatT) (x exp : Nat) : Bool := cu T (x * modInv T exp) ≤ maxQuotients T exp

/-- dragonbox.hpp 364–459: the number of trailing zero bits of a number with at most `fuel` bits -/
def countrZero : Nat → Nat → Nat
  | 0, _ => 0
  | fuel + 1, n => if n % 2 = 0 then countrZero fuel (n / 2) + 1 else 0

/-- dragonbox.hpp 841–854 -/
def divisibleByPowerOf2 (T : FloatT) (x : Nat) (exp : Int) : Bool := decide (exp ≤ (countrZero T.bits x : Int))

/-- dragonbox.hpp 863–877: magic number, bits for comparison, threshold, shift -/
def divInfo (T : FloatT) : Nat × Nat × Nat × Nat :=
  match T with | .float => (0xcccd, 16, 0x3333, 19) | .double => (0x147c29, 12, 0xa3, 27)

/-- dragonbox.hpp 2506, 2604, 2774 -/
def kappa (T : FloatT) : Nat := match T with | .float => 1 | .double => 2

/-- dragonbox.hpp 879–900 `check_divisibility_and_divide_by_pow10<kappa>`: the result and the new value of `n` -/
def checkDivisibility (T : FloatT) (n : Nat) : Bool × Nat :=
  let n := u32 (n * (divInfo T).1)
  let c := ((n >>> kappa T) ||| u32 (n <<< ((divInfo T).2.1 - kappa T))) &&& (2 ^ (divInfo T).2.1 - 1)
  (decide (c ≤ (divInfo T).2.2.1), n >>> (divInfo T).2.2.2)

/-- dragonbox.hpp 927–950 `divide_by_pow10<kappa + 1, significand_bits + kappa + 2, kappa + 1>`: 64-bit division by 1000 is a
multiplication (the condition of 946–948 is true for double: 56 + 19 - 6 < 70) -/
def divideByBig (T : FloatT) (n : Nat) : Nat :=
  match T with
  | .float => n / 100
  | .double => umul128Upper64 n 0x83126e978d4fdf3c / 2 ^ 9

/-! ## impl_base -/

/-- dragonbox.hpp 1016, 1107 -/
def minK (T : FloatT) : Int := match T with | .float => -31 | .double => -292
/-- dragonbox.hpp 1017, 1108 -/
def maxK (T : FloatT) : Int := match T with | .float => 46 | .double => 326
/-- dragonbox.hpp 2503, 2601: `cache_bits` -/
def cacheBits (T : FloatT) : Nat := match T with | .float => 64 | .double => 128

/-- dragonbox.hpp 2334–2345 `get_cache`: (high, low); the 64-bit entries of float have no low part -/
def getCache (T : FloatT) (k : Int) : Nat × Nat :=
  match T with
  | .float => (cacheFloat.getD (k - minK .float).toNat 0, 0)
  | .double => cacheDouble.getD (k - minK .double).toNat (0, 0)

/-- dragonbox.hpp 2510–2513, 2608–2611 -/
def computeMul (T : FloatT) (u : Nat) (cache : Nat × Nat) : Nat :=
  match T with
  | .float => umul96Upper32 u cache.1
  | .double => umul192Upper64 u cache

/-- dragonbox.hpp 2515–2519, 2613–2617 -/
def computeDelta (_T : FloatT) (cache : Nat × Nat) (betaMinus1 : Nat) : Nat := u32 (cache.1 / 2 ^ (64 - 1 - betaMinus1))

/-- dragonbox.hpp 2521–2528, 2619–2626 -/
def computeMulParity (T : FloatT) (twoF : Nat) (cache : Nat × Nat) (betaMinus1 : Nat) : Bool :=
  match T with
  | .float => (umul96Lower64 twoF cache.1 / 2 ^ (64 - betaMinus1)) % 2 ≠ 0
  | .double => (umul192Middle64 twoF cache / 2 ^ (64 - betaMinus1)) % 2 ≠ 0

/-- dragonbox.hpp 2530–2536, 2628–2633 -/
def leftEndpoint (T : FloatT) (cache : Nat × Nat) (betaMinus1 : Nat) : Nat :=
  cu T (sub64 cache.1 (cache.1 / 2 ^ (T.mSize + 2)) / 2 ^ (64 - T.mSize - 1 - betaMinus1))

/-- dragonbox.hpp 2538–2544, 2635–2640 -/
def rightEndpoint (T : FloatT) (cache : Nat × Nat) (betaMinus1 : Nat) : Nat :=
  cu T (u64 (cache.1 + cache.1 / 2 ^ (T.mSize + 1)) / 2 ^ (64 - T.mSize - 1 - betaMinus1))

/-- dragonbox.hpp 2546–2550, 2642–2646 -/
def roundUp (T : FloatT) (cache : Nat × Nat) (betaMinus1 : Nat) : Nat :=
  cu T (cu T (cache.1 / 2 ^ (64 - T.mSize - 2 - betaMinus1)) + 1) / 2

/-- dragonbox.hpp: One step of the search for trailing zeros (2566–2572 and the like): is `n` divisible by 10^i? The quotient, if so. -/
def tryPow10 (n i : Nat) : Option Nat :=
  if n % 2 ^ i = 0 then
    let quotient := u32 (n / 2 ^ i * modInv .float i)
    if quotient ≤ maxQuotients .float i then some quotient else none
  else none

/-- dragonbox.hpp 2553–2680: the quotient by 10^i and the exponent added to `s`, if `n` is divisible by 10^i -/
def stripPow10 (i : Nat) (ns : Nat × Nat) : Nat × Nat :=
  match tryPow10 ns.1 i with
  | some q => (q, ns.2 ||| i)
  | none => ns

/-- dragonbox.hpp 2553–2592 `remove_trailing_zeros` of float -/
def removeZerosFloat (n : Nat) : Nat × Nat := stripPow10 1 (stripPow10 2 (stripPow10 4 (n, 0)))

/-- dragonbox.hpp 2714–2722: the remainder, the multiplier and `s` -/
def rest4 (r : Nat) : Nat × Nat × Nat := match tryPow10 r 4 with | some q => (q, 10000, 4) | none => (r, 100000000, 0)
/-- dragonbox.hpp 2724–2732 -/
def rest2 (x : Nat × Nat × Nat) : Nat × Nat × Nat :=
  match tryPow10 x.1 2 with
  | some q => (q, if x.2.2 = 4 then 100 else 1000000, x.2.2 ||| 2)
  | none => x
/-- dragonbox.hpp 2734–2742 -/
def rest1 (x : Nat × Nat × Nat) : Nat × Nat × Nat :=
  match tryPow10 x.1 1 with
  | some q => (q, u32 (x.2.1 / 2 * modInv .float 1), x.2.2 ||| 1)
  | none => x

/-- dragonbox.hpp 2649–2747 `remove_trailing_zeros` of double -/
def removeZerosDouble (n : Nat) : Nat × Nat :=
  let quotient := u32 (n / 100000000)
  let remainder := u32 (sub64 n (u32 (100000000 * quotient)))
  if remainder = 0 then
    match tryPow10 quotient 8 with
    | some q => (q, 16)
    | none => stripPow10 1 (stripPow10 2 (stripPow10 4 (quotient, 8)))
  else
    let x := rest1 (rest2 (rest4 remainder))
    (u64 (x.1 + u64 (quotient * x.2.1)), x.2.2)

/-- dragonbox.hpp 2553–2680: `remove_trailing_zeros` -/
def removeZeros (T : FloatT) (n : Nat) : Nat × Nat :=
  match T with | .float => removeZerosFloat n | .double => removeZerosDouble n

/-! ## impl -/

/-- dragonbox.hpp 2793 -/
def maxPowerOfFactorOf5 (T : FloatT) : Int := floorLog5Pow2 (T.mSize + 2)
/-- dragonbox.hpp 2794–2795 -/
def by5Threshold (T : FloatT) : Int := floorLog2Pow10 (maxPowerOfFactorOf5 T + kappa T + 1)
/-- dragonbox.hpp 2797 -/
def halfLower (T : FloatT) : Int := -(kappa T : Int) - floorLog5Pow2 (kappa T)
/-- dragonbox.hpp 2798 -/
def halfUpper (T : FloatT) : Int := floorLog2Pow10 (kappa T + 1)
/-- dragonbox.hpp 2800 -/
def fcLower (T : FloatT) : Int := -(kappa T : Int) - 1 - floorLog5Pow2 (kappa T + 1)
/-- dragonbox.hpp 2801 -/
def fcUpper (T : FloatT) : Int := floorLog2Pow10 (kappa T + 1)
/-- dragonbox.hpp 2804–2809 -/
def leftUpper (T : FloatT) : Int := 2 + (Nat.log2 (10 ^ (countFactors 5 64 (2 ^ (T.mSize + 2) - 1) + 1) / 3) : Int)
/-- dragonbox.hpp 2819–2820 -/
def tieLower (T : FloatT) : Int := -floorLog5Pow2MinusLog5_3 (T.mSize + 4) - 2 - T.mSize
/-- dragonbox.hpp 2821–2822 -/
def tieUpper (T : FloatT) : Int := -floorLog5Pow2 (T.mSize + 2) - 2 - T.mSize

/-- dragonbox.hpp 3208–3224 `is_product_integer<fc_pm_half>` -/
def isIntegerHalf (T : FloatT) (twoF : Nat) (exponent minusK : Int) : Bool :=
  if exponent < halfLower T then false
  else if exponent ≤ halfUpper T then true
  else if exponent > by5Threshold T then false
  else divisibleByPowerOf5 T twoF minusK.toNat

/-- dragonbox.hpp 3225–3244 `is_product_integer<fc>` -/
def isIntegerFc (T : FloatT) (twoF : Nat) (exponent minusK : Int) : Bool :=
  if exponent > by5Threshold T then false
  else if exponent > fcUpper T then divisibleByPowerOf5 T twoF minusK.toNat
  else if exponent ≥ fcLower T then true
  else divisibleByPowerOf2 T twoF (minusK - exponent + 1)

/-- dragonbox.hpp 3199–3202 -/
def isLeftInteger (T : FloatT) (exponent : Int) : Bool := 2 ≤ exponent ∧ exponent ≤ leftUpper T

/-- dragonbox.hpp 2291–2295 `break_rounding_tie` -/
def breakTie (s : Nat) : Nat := if s % 2 = 0 then s else s - 1

/-- dragonbox.hpp 1865–1868 `on_trailing_zeros` -/
def onTrailingZeros (T : FloatT) (significand : Nat) (exponent : Int) : Nat × Int :=
  let r := removeZeros T significand
  (r.1, exponent + r.2)

/-- dragonbox.hpp 2909–2975, from `small_divisor_case_label` -/
def smallDivisor (T : FloatT) (twoFc : Nat) (exponent minusK : Int) (cache : Nat × Nat) (betaMinus1 deltai s r : Nat) :
    Nat × Int :=
  let small := 10 ^ kappa T
  let dist := u32 (sub32 r (deltai / 2) + small / 2)
  let approxYParity : Bool := decide ((dist ^^^ (small / 2)) % 2 ≠ 0)
  let c := checkDivisibility T dist
  let s := cu T (cu T (s * 10) + c.2)
  let s :=
    if c.1 then
      if computeMulParity T twoFc cache betaMinus1 ≠ approxYParity then subC T s 1
      else if isIntegerFc T twoFc exponent minusK then breakTie s
      else s
    else s
  (s, minusK + kappa T)

/-- dragonbox.hpp 2826–2975 `compute_nearest_normal`; `closed`: both ends of the interval are included -/
def nearestNormal (T : FloatT) (twoFc : Nat) (exponent : Int) (closed : Bool) : Nat × Int :=
  let minusK := floorLog10Pow2 exponent - kappa T
  let cache := getCache T (-minusK)
  let betaMinus1 := (exponent + floorLog2Pow10 (-minusK)).toNat
  let deltai := computeDelta T cache betaMinus1
  let twoFr := twoFc ||| 1
  let zi := computeMul T (cu T (twoFr * 2 ^ betaMinus1)) cache
  let big := 10 ^ (kappa T + 1)
  let s := divideByBig T zi
  let r := u32 (subC T zi (cu T (big * s)))
  if r > deltai then smallDivisor T twoFc exponent minusK cache betaMinus1 deltai s r
  else if r < deltai then
    if r = 0 ∧ closed = false ∧ isIntegerHalf T twoFr exponent minusK = true then
      smallDivisor T twoFc exponent minusK cache betaMinus1 deltai (subC T s 1) big
    else onTrailingZeros T s (minusK + kappa T + 1)
  else
    let twoFl := subC T twoFc 1
    if (closed = false ∨ isIntegerHalf T twoFl exponent minusK = false) ∧
        computeMulParity T twoFl cache betaMinus1 = false then
      smallDivisor T twoFc exponent minusK cache betaMinus1 deltai s r
    else onTrailingZeros T s (minusK + kappa T + 1)

/-- dragonbox.hpp 2978–3045 `compute_nearest_shorter`, of the closed interval (1924–1931) -/
def nearestShorter (T : FloatT) (exponent : Int) : Nat × Int :=
  let minusK := floorLog10Pow2MinusLog10_4over3 exponent
  let betaMinus1 := (exponent + floorLog2Pow10 (-minusK)).toNat
  let cache := getCache T (-minusK)
  let xi := leftEndpoint T cache betaMinus1
  let zi := rightEndpoint T cache betaMinus1
  let xi := if isLeftInteger T exponent then xi else cu T (xi + 1)
  let s := zi / 10
  if cu T (s * 10) ≥ xi then onTrailingZeros T s (minusK + 1)
  else
    let s := roundUp T cache betaMinus1
    if tieLower T ≤ exponent ∧ exponent ≤ tieUpper T then (breakTie s, minusK)
    else if s < xi then (cu T (s + 1), minusK)
    else (s, minusK)

/-- dragonbox.hpp 3261–3339 `to_decimal`, of the exponent and mantissa bits of a positive finite number -/
def toDecimal (T : FloatT) (exponentBits mantissaBits : Nat) : Nat × Int :=
  let twoFc := cu T (mantissaBits * 2)
  if exponentBits ≠ 0 then
    let exponent := (exponentBits : Int) - T.bias - T.mSize
    if twoFc = 0 then nearestShorter T exponent
    else nearestNormal T (twoFc ||| 2 ^ (T.mSize + 1)) exponent (mantissaBits % 2 = 0)
  else nearestNormal T twoFc (1 - T.bias - T.mSize) (mantissaBits % 2 = 0)

end Strf.Dragonbox

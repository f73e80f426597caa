/-
Specification of width arithmetic: exact integers in units of 1/65536 of a column.
-/
namespace Strf.WidthSpec

/-- the nearest width to the exact value `x` (in 1/65536 columns) that a `width_t` can hold -/
def clamp (x : Int) : Int := max (-2147483648) (min 2147483647 x)

/-- `r` is the quotient `a / b` truncated toward zero: the largest magnitude with `|r*b| ≤ |a|`, sign of `a/b`. -/
def IsTruncQuot (a b r : Int) : Prop :=
  r.natAbs * b.natAbs ≤ a.natAbs ∧ a.natAbs < (r.natAbs + 1) * b.natAbs ∧ 0 ≤ r * (a * b)

/-- `r` is the largest integer ≤ `v / 65536` -/
def IsFloor (v r : Int) : Prop := r * 65536 ≤ v ∧ v < (r + 1) * 65536
/-- `r` is the least integer ≥ `v / 65536` -/
def IsCeil (v r : Int) : Prop := v ≤ r * 65536 ∧ (r - 1) * 65536 < v
/-- `r` is the nearest integer to `v / 65536`, the one nearer to zero in case of a tie -/
def IsRound (v r : Int) : Prop :=
  2 * (v - r * 65536).natAbs < 65536 ∨ (2 * (v - r * 65536).natAbs = 65536 ∧ r.natAbs * 65536 < v.natAbs)

/-- the number denoted by a list of decimal digits, most significant first -/
def decNat (ds : List Nat) : Nat := ds.foldl (fun a d => 10 * a + d) 0

/-- `r` is the nearest integer to `p / q` (`q > 0`), the even one in case of a tie -/
def IsNearestEven (p q r : Nat) : Prop :=
  2 * (Int.natAbs ((p : Int) - r * q)) < q ∨ (2 * (Int.natAbs ((p : Int) - r * q)) = q ∧ r % 2 = 0)

end Strf.WidthSpec

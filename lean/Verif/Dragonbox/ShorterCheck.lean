import Verif.Dragonbox.Model
import Verif.Dragonbox.Check
/-
compute_nearest_shorter: there is only one number for each exponent, so its results are checked, by evaluation in the
kernel, for all of them.
-/
namespace Strf.Dragonbox
open Strf.Float

/-- `10^E / 2^(e-2)` as a fraction -/
def scaleNum (E f : Int) : Nat := 10 ^ E.toNat * 2 ^ (-f).toNat
/-- `10^E / 2^(e-2)` as a fraction -/
def scaleDen (E f : Int) : Nat := 2 ^ f.toNat * 10 ^ (-E).toNat

/-- The result `d·10^E` for a number `V·2^f` and the interval `[L·2^f, R·2^f]`: it is in the interval, no multiple of
`10^(E+1)` is, and it is the multiple of `10^E` in the interval that is closest to the number. -/
def shorterOk (d : Nat) (E f : Int) (L V R : Nat) : Bool :=
  force (scaleNum E f) fun P => force (scaleDen E f) fun Q =>
    Nat.ble (L * Q) (d * P) && Nat.ble (d * P) (R * Q) && Nat.blt (d / 10 * 10 * P) (L * Q) &&
    Nat.blt (R * Q) ((d / 10 + 1) * 10 * P) &&
    ((Nat.ble (2 * (d * P)) (2 * (V * Q) + P) && Nat.ble (2 * (V * Q)) (2 * (d * P) + P)) ||
      (Nat.ble (V * Q) (d * P) && Nat.blt (d * P) (L * Q + P))) &&
    Nat.blt d (10 ^ 17) && decide (-400 ≤ E) && decide (E ≤ 400)

/-- the check of an exponent: the unit is a quarter of the distance to the next greater number -/
def checkShorter (T : FloatT) (eb : Nat) : Bool :=
  let e : Int := (eb : Int) - T.bias - T.mSize
  let r := nearestShorter T e
  shorterOk r.1 r.2 (e - 2) (4 * 2 ^ T.mSize - if eb = 1 then 2 else 1) (4 * 2 ^ T.mSize) (4 * 2 ^ T.mSize + 2)

theorem shorter_float : ∀ eb < 255, eb ≠ 0 → checkShorter .float eb = true := by decide +kernel

set_option maxRecDepth 10000 in
theorem shorter_double : ∀ eb < 2047, eb ≠ 0 → checkShorter .double eb = true := by decide +kernel

end Strf.Dragonbox

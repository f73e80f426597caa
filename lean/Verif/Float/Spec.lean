import Verif.IntPrinter.Spec
/-
What a printed floating-point number looks like (docs/ref_format_functions.adoc, "Floating-point formatting", which
refers to printf), without reference to the code. The number is `m · 10^e` (`Float/Props.lean` says which decimal
number that is). Characters are their codes; `point` and `sep` are the code units of the decimal point and of the
separator.
-/
namespace Strf.Float.Spec
open Strf.IntDigits.Spec Strf.Numpunct.Spec
open Strf.IntPrinter.Spec (Showsign Align Layout before times)

/-- `m · 10^e` in multiples of `10^q`, rounded to the nearest integer, ties to even -/
def roundAt (m : Nat) (e q : Int) : Nat :=
  if q ≤ e then m * 10 ^ (e - q).toNat
  else
    let unit := 10 ^ (q - e).toNat
    let low := m / unit
    let rest := m % unit
    if 2 * rest < unit ∨ (2 * rest = unit ∧ low % 2 = 0) then low else low + 1

/-- the exponent of `m · 10^e` in scientific notation: that of its first digit -/
def sciExp (m : Nat) (e : Int) : Int := e + (numeral 10 m).length - 1

/-- `m · 10^e` rounded to `n` significant digits: an integer of `n` digits (or 0) and the exponent of its first digit -/
def significant (n m : Nat) (e : Int) : Nat × Int :=
  let x := sciExp m e
  let r := roundAt m e (x - (n - 1))
  if r = 10 ^ n then (10 ^ (n - 1), x + 1) else (r, x)

/-- The digits of the integer `digits`, with the point before the last `frac` of them, and the exponent if the notation
is scientific. -/
structure Shape where
  digits : Nat
  frac : Nat
  exp : Option Int
deriving DecidableEq, Repr

/-- remove the trailing zeros after the point -/
def strip : Nat → Nat → Nat × Nat
  | m, 0 => (m, 0)
  | m, f + 1 => if m % 10 = 0 then strip (m / 10) f else (m, f + 1)

/-- the digits of `v`, with leading zeros if there are less than `n` -/
def atLeast (n v : Nat) : List Nat := List.replicate (n - (text 10 .lower v).length) 0x30 ++ text 10 .lower v

/-- the digits before the point, in groups; the point, if there are digits after it or if it is asked for (`alt`); the
digits after it -/
def body (point sep gs : List Nat) (rep alt : Bool) (v frac : Nat) : List Nat :=
  let ds := atLeast (frac + 1) v
  let int := ds.take (ds.length - frac)
  grouped sep (split gs rep int.length).reverse int ++ (if alt ∨ 0 < frac then point else []) ++
    ds.drop (ds.length - frac)

/-- the exponent: its sign, and at least two digits -/
def expText (lc : Lettercase) (x : Int) : List Nat :=
  (if lc = .upper then 0x45 else 0x65) :: (if x < 0 then 0x2D else 0x2B) :: atLeast 2 x.natAbs

/-- the number; digits are grouped only in fixed notation -/
def number (lc : Lettercase) (point sep gs : List Nat) (rep alt : Bool) (sh : Shape) : List Nat :=
  match sh.exp with
  | none => body point sep gs rep alt sh.digits sh.frac
  | some x => body point [] [] false alt sh.digits sh.frac ++ expText lc x

/-- its width: every character has one column -/
def columns (gs : List Nat) (rep alt : Bool) (sh : Shape) : Nat := (number .lower [0x2E] [0x2C] gs rep alt sh).length

/-- the notations other than hexadecimal -/
inductive Notation | fixed | scientific | general
deriving DecidableEq, Repr

/-- exactly `m · 10^e` in fixed notation -/
def exactFixed (m : Nat) (e : Int) : Shape := ⟨m * 10 ^ e.toNat, (-e).toNat, none⟩
/-- exactly `m · 10^e` in scientific notation -/
def exactSci (m : Nat) (e : Int) : Shape := ⟨m, (numeral 10 m).length - 1, some (sciExp m e)⟩

/-- The shape of `m · 10^e`. Without precision the number is exact, and the general notation is the shorter of the other
two, fixed if they are as long. With precision the number is rounded: to that many digits after the point in the fixed
and the scientific notation. In the general notation the precision is the number of significant digits (at least one);
the notation is scientific if the exponent is less than -4 or not less than the precision; and trailing zeros after the
point are removed unless `alt`. -/
def shape (gs : List Nat) (rep : Bool) (n : Notation) (prec : Option Nat) (alt : Bool) (m : Nat) (e : Int) : Shape :=
  match n, prec with
  | .fixed, none => exactFixed m e
  | .scientific, none => exactSci m e
  | .general, none =>
    if columns gs rep alt (exactSci m e) < columns gs rep alt (exactFixed m e) then exactSci m e else exactFixed m e
  | .fixed, some p => ⟨roundAt m e (-p), p, none⟩
  | .scientific, some p => ⟨(significant (p + 1) m e).1, p, some (significant (p + 1) m e).2⟩
  | .general, some p =>
    let p := max p 1
    let (v, x) := significant p m e
    let frac := if x < -4 ∨ (p : Int) ≤ x then p - 1 else ((p : Int) - 1 - x).toNat
    let exp := if x < -4 ∨ (p : Int) ≤ x then some x else none
    if alt then ⟨v, frac, exp⟩ else ⟨(strip v frac).1, (strip v frac).2, exp⟩

/-- what comes before the digits: the sign, or a fill character instead of '+' -/
def leader (enc : Nat → List Nat) (sign : Showsign) (fill : Nat) (neg : Bool) : List Nat :=
  if neg then [0x2D]
  else match sign with
    | .negativeOnly => []
    | .positiveAlso => [0x2B]
    | .fillInstead => enc fill

/-- its width -/
def leaderColumns (sign : Showsign) (neg : Bool) : Nat := (leader (fun c => [c]) sign 0x20 neg).length

/-- Something of `cols` columns, aligned: fill characters, the sign, `base` ("0x" or nothing), zeros up to `pad0` columns,
the text, fill characters. -/
def arranged (enc : Nat → List Nat) (sign : Showsign) (pad0 : Int) (lay : Layout) (neg : Bool) (base txt : List Nat)
    (cols : Nat) : List Nat :=
  let content := leaderColumns sign neg + base.length + cols
  let zeros := (pad0 - content).toNat
  let n := (lay.columns - (content + zeros : Nat)).toNat
  times enc (before lay.align n) lay.fill ++ leader enc sign lay.fill neg ++ base ++ List.replicate zeros 0x30 ++ txt ++
    times enc (n - before lay.align n) lay.fill

/-- its width -/
def arrangedWidth (sign : Showsign) (pad0 : Int) (lay : Layout) (neg : Bool) (base : List Nat) (cols : Nat) : Nat :=
  max (max (leaderColumns sign neg + base.length + cols) pad0.toNat) lay.columns.toNat

/-- "nan" or "inf" -/
def special (lc : Lettercase) (nan : Bool) : List Nat :=
  match lc, nan with
  | .lower, true => [0x6E, 0x61, 0x6E]
  | .mixed, true => [0x4E, 0x61, 0x4E]
  | .upper, true => [0x4E, 0x41, 0x4E]
  | .lower, false => [0x69, 0x6E, 0x66]
  | .mixed, false => [0x49, 0x6E, 0x66]
  | .upper, false => [0x49, 0x4E, 0x46]

/-! ### hexadecimal notation: `(lead + frac / 16^13) · 2^x`, where `lead` is 0 or 1 and `frac < 16^13` -/

/-- the last `n` hexadecimal digits of `v` -/
def hexDigits (lc : Lettercase) : Nat → Nat → List Nat
  | 0, _ => []
  | n + 1, v => hexDigits lc n (v / 16) ++ [digitChar lc (v % 16)]

/-- `v / 16^n` rounded to the nearest integer, ties to even -/
def roundHex (v n : Nat) : Nat :=
  let low := v / 16 ^ n
  let rest := v % 16 ^ n
  if 2 * rest < 16 ^ n ∨ (2 * rest = 16 ^ n ∧ low % 2 = 0) then low else low + 1

/-- remove trailing zeros, in base 16 -/
def stripHex : Nat → Nat → Nat × Nat
  | m, 0 => (m, 0)
  | m, f + 1 => if m % 16 = 0 then stripHex (m / 16) f else (m, f + 1)

/-- the integer whose hexadecimal digits are printed and how many of them come after the point: without precision, all that
are needed; with a precision of 13 or more, zeros are added; with less, the number is rounded -/
def hexShape (lead frac : Nat) (prec : Option Nat) : Nat × Nat :=
  let v := lead * 16 ^ 13 + frac
  match prec with
  | none => stripHex v 13
  | some p => if p < 13 then (roundHex v (13 - p), p) else (v * 16 ^ (p - 13), p)

/-- the digits and the binary exponent -/
def hexText (lc : Lettercase) (point : List Nat) (alt : Bool) (lead frac : Nat) (x : Int) (prec : Option Nat) : List Nat :=
  let (v, f) := hexShape lead frac prec
  digitChar lc (v / 16 ^ f) :: (if alt ∨ 0 < f then point else []) ++ hexDigits lc f v ++
    (if lc = .upper then 0x50 else 0x70) :: (if x < 0 then 0x2D else 0x2B) :: text 10 .lower x.natAbs

end Strf.Float.Spec

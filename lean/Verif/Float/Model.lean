import Verif.Float.Spec
import Verif.IntPrinter.Model
import Verif.Float.Types
/-!
# Model of the floating-point printers, include/strf/detail/printable_types/float.hpp

Line numbers are of that file. `chars_count_t` is `int`: the fields are integers, and `initFill` is `none` (undefined
behaviour) if the number of characters counted is not an `int`; the partial sums, which are not larger, are not checked
separately. `pow10` is `none` out of its table. A destination's units are numbers.

The conversion to decimal (dragonbox) is a parameter here.
-/
namespace Strf.Float
open Strf.IntDigits Strf.IntDigits.Spec Strf.Numpunct Strf.Print
open Strf.IntPrinter (AlignFmt b2n b2i signChar printFill)
open Strf.IntPrinter.Spec (Showsign Align)
open Strf.Dest (Dest)

variable {σ : Type}

/-! ## decode -/

/-- float.hpp 39–62, 65–88 `decode` -/
def decode (toDec : ToDecimal) (T : FloatT) (bits : Nat) : Dec :=
  let exponent := expBits T bits
  let sign := signBit T bits
  let mantissa := manBits T bits
  if exponent = 0 ∧ mantissa = 0 then ⟨0, 0, sign, false, false⟩
  else if exponent = 2 ^ T.eSize - 1 then
    if mantissa = 0 then ⟨0, 0, sign, true, false⟩ else ⟨0, 0, sign, false, true⟩
  else
    let r := toDec T exponent mantissa
    ⟨r.1, r.2, sign, false, false⟩

/-! ## fast_double_printer -/

/-- float.hpp 1303–1306 the members of fast_double_printer -/
structure Fast where
  value : Dec
  digcount : Nat
  lc : Lettercase
  sci : Bool
deriving DecidableEq, Repr

/-- float.hpp 1275–1295 the constructors -/
def Fast.make (v : Dec) (lc : Lettercase) : Fast :=
  let digcount := countDigits 10 8 v.m10
  ⟨v, digcount, lc, decide (v.e10 > 4 + (if digcount ≠ 1 then 1 else 0)) ||
    decide (-v.e10 > (digcount : Int) + 2 + (if digcount ≠ 1 then 1 else 0))⟩

/-- conversion of a condition to `int` -/
def c2i (p : Prop) [Decidable p] : Int := if p then 1 else 0

/-- float.hpp 1309–1327 `size()` -/
def Fast.size (p : Fast) : Int :=
  let dc : Int := p.digcount
  let e10 := p.value.e10
  let sciE10 := e10 - 1 + dc
  b2i p.value.nan * 3 + b2i p.value.infinity * 3 + b2i p.value.negative +
    b2i (!(p.value.infinity || p.value.nan)) *
      (b2i p.sci * (4 + c2i (dc ≠ 1) + dc + c2i (sciE10 > 99 ∨ sciE10 < -99)) +
       b2i (!p.sci) * (dc + c2i (e10 > 0) * e10 + c2i (e10 ≤ -dc) * (2 - e10 - dc) + c2i (-dc < e10 ∧ e10 < 0)))

/-- float.hpp 1165–1188, 1189–1215 print_nan: the characters -/
def nanChars : Lettercase → List Nat
  | .mixed => [0x4E, 0x61, 0x4E]
  | .upper => [0x4E, 0x41, 0x4E]
  | .lower => [0x6E, 0x61, 0x6E]
/-- float.hpp 1217–1239, 1241–1268 print_inf: the characters -/
def infChars : Lettercase → List Nat
  | .mixed => [0x49, 0x6E, 0x66]
  | .upper => [0x49, 0x4E, 0x46]
  | .lower => [0x69, 0x6E, 0x66]

/-- float.hpp 1189–1215, 1241–1268 print_nan, print_inf with a sign -/
def printSpecial (D : Dest Nat σ) (chars : List Nat) (negative : Bool) (s : σ) : Option σ :=
  D.poke (Dest.ensure D s (3 + b2n negative)) ((if negative then [0x2D] else []) ++ chars)

/-- float.hpp 1356–1373, 1138–1162: the characters of an exponent -/
def expChars (lc : Lettercase) (e : Int) : List Nat :=
  let a := e.natAbs
  [0x45 ||| (if lc ≠ .upper then 32 else 0), 0x2B + (if e < 0 then 2 else 0)] ++
    (if a ≥ 100 then [0x30 + a / 10 / 10, 0x30 + a / 10 % 10, 0x30 + a % 10]
     else if a ≥ 10 then [0x30 + a / 10, 0x30 + a % 10]
     else [0x30, 0x30 + a])

/-- overwrite part of a field -/
def overwrite (xs : List Nat) (i : Nat) (ys : List Nat) : List Nat := xs.take i ++ ys ++ xs.drop (i + ys.length)

/-- float.hpp 1346–1355: the digits of the significand, of which the first is moved before the point; `none` if the digits do not
fill their field -/
def fastSig (digcount m10 : Nat) : Option (List Nat) :=
  if digcount = 1 then some [0x30 + m10]
  else
    let ds := back10 m10 []
    if ds.length = digcount then
      -- the digits are at it[1] …, it[0] is not yet written
      let field := 0 :: ds
      let field := overwrite field 0 [field.getD 1 0]
      some (overwrite field 1 [0x2E])
    else none

/-- float.hpp 1407–1418: digits after the point, in pairs, right to left. `n` is `abs_e10`. -/
def fracLoop (n m : Nat) (acc : List Nat) : Nat × List Nat :=
  if _h : n ≥ 2 then
    let index := m % 100 * 2
    fracLoop (n - 2) (m / 100) (chars00to99.getD index 0 :: chars00to99.getD (index + 1) 0 :: acc)
  else if n ≠ 0 then (m / 10, (0x30 + m % 10) :: acc)
  else (m, acc)

/-- float.hpp 1420–1433: the digits before the point -/
def intLoop (m : Nat) (acc : List Nat) : List Nat :=
  if _h : m > 99 then
    let index := m % 100 * 2
    intLoop (m / 100) (chars00to99.getD index 0 :: chars00to99.getD (index + 1) 0 :: acc)
  else if m > 9 then
    let index := m * 2
    chars00to99.getD index 0 :: chars00to99.getD (index + 1) 0 :: acc
  else (0x30 + m) :: acc
termination_by m
decreasing_by omega

/-- float.hpp 1329–1438 fast_double_printer::operator() -/
def Fast.print (D : Dest Nat σ) (p : Fast) (s : σ) : Option σ :=
  let v := p.value
  let minus := if v.negative then [0x2D] else []
  if v.nan then printSpecial D (nanChars p.lc) v.negative s
  else if v.infinity then printSpecial D (infChars p.lc) v.negative s
  else if p.sci then
    let e10 := v.e10 - 1 + p.digcount
    let s := Dest.ensure D s (b2n v.negative + p.digcount + (if p.digcount ≠ 1 then 1 else 0) + 4 +
      (if e10 > 99 ∨ e10 < -99 then 1 else 0))
    (fastSig p.digcount v.m10).bind fun sig => D.poke s (minus ++ sig ++ expChars p.lc e10)
  else
    let s := Dest.ensure D s (b2n v.negative + (if v.e10 > -(p.digcount : Int) then p.digcount else 0) +
      (if v.e10 ≤ -(p.digcount : Int) then 1 else 0) + (if v.e10 < 0 then 1 else 0))
    if v.e10 ≥ 0 then
      (pokeField D s (minus.length + p.digcount) (minus ++ back10 v.m10 [])).bind fun s =>
      Dest.writeFill D s v.e10 0x30
    else
      let absE10 := (-v.e10).toNat
      if absE10 ≥ p.digcount then
        (D.poke s (minus ++ [0x30, 0x2E])).bind fun s =>
        (Dest.writeFill D s (absE10 - p.digcount : Nat) 0x30).bind fun s =>
        pokeField D (Dest.ensure D s p.digcount) p.digcount (back10 v.m10 [])
      else
        let r := fracLoop absE10 v.m10 []
        pokeField D s (minus.length + p.digcount + 1) (minus ++ intLoop r.1 (0x2E :: r.2))

/-! ## double_printer_data and its initialization -/

/-- float.hpp 110 `strf::float_notation` -/
inductive Notation | fixed | scientific | general | hex
deriving DecidableEq, Repr

/-- float.hpp 112–140 `float_format` -/
structure FloatFmt where
  precision : Int
  pad0 : Int
  nota : Notation
  sign : Showsign
  showpoint : Bool
  punctuate : Bool
deriving DecidableEq, Repr

/-- float.hpp 1481 `float_form` -/
inductive Form | nan | inf | fixed | sci | hex
deriving DecidableEq, Repr

/-- float.hpp 1488–1518 `double_printer_data`. The members of each union are one field: `digcount` is m10_digcount and
mantissa_digcount, `sep` is sep_count and exponent_digcount, `m` is m10 and mantissa, `e` is e10 and exponent. -/
structure Data where
  form : Form
  sign : Nat
  showsign : Bool
  showpoint : Bool
  subnormal : Bool
  sub : Int
  pad0 : Int
  extra : Int
  digcount : Int
  sep : Int
  left : Int
  right : Int
  fill : Nat
  m : Nat
  e : Int
deriving DecidableEq, Repr

/-- float.hpp 1520–1523 `float_init_result` -/
structure Res where
  content : Int
  fillcount : Int
deriving DecidableEq, Repr

/-- int_digits.hpp 30–53 `pow10`: a table of 20 powers -/
def pow10 (n : Int) : Option Nat := if 0 ≤ n ∧ n ≤ 19 then some (10 ^ n.toNat) else none

/-- float.hpp 1559–1567: `adapt_fill_sign_space` -/
def adaptFillSign (d : Data) (content fillcount : Int) : Data × Res :=
  ({ d with showsign := false, left := d.left + 1, sub := d.sub - 1, pad0 := if d.pad0 > 0 then d.pad0 - 1 else d.pad0 },
    ⟨content - 1, fillcount + 1⟩)

/-- float.hpp 1527–1571 init_double_printer_data_fill. `none` if the width of the content is not an `int`. -/
def initFill (d : Data) (width content : Int) (al : Align) : Option (Data × Res) :=
  if content > 2147483647 then none else
  let fillSign := d.sign = 0x20
  if width ≤ content then
    let d := { d with left := 0, right := 0 }
    if fillSign ∧ d.fill ≠ 0x20 then some (adaptFillSign d content 0) else some (d, ⟨content, 0⟩)
  else
    let fillcount := width - content
    let d := match al with
      | .left => { d with left := 0, right := fillcount }
      | .right => { d with left := fillcount, right := 0 }
      | .center => { d with left := fillcount / 2, right := fillcount / 2 + fillcount % 2 }
    if fillSign then some (adaptFillSign d content fillcount) else some (d, ⟨content, fillcount⟩)

/-- float.hpp 1440–1446 exponent_hex_digcount -/
def exponentHexDigcount (e : Int) : Int :=
  let e := if e < 0 then -e else e
  1 + c2i (e ≥ 1000) + c2i (e ≥ 100) + c2i (e ≥ 10)

/-- float.hpp 1457–1475 mantissa_hex_digcount, without STRF_HAS_COUNTR_ZERO -/
def mantissaHexDigcount (m : Nat) : Int :=
  if m % 2 ^ 32 = 0 then
    if m % 2 ^ 40 = 0 then
      if m % 2 ^ 48 = 0 then 1 else if m % 2 ^ 44 = 0 then 2 else 3
    else if m % 2 ^ 36 = 0 then 4 else 5
  else if m % 2 ^ 16 = 0 then
    if m % 2 ^ 24 = 0 then (if m % 2 ^ 28 = 0 then 6 else 7)
    else if m % 2 ^ 20 = 0 then 8 else 9
  else if m % 2 ^ 8 = 0 then (if m % 2 ^ 12 = 0 then 10 else 11)
  else if m % 2 ^ 4 = 0 then 12 else 13

/-- standard_lib_functions.hpp 62–180: `countr_zero_ll`: the number of trailing zero bits of a non-zero number -/
def countrZero (m : Nat) : Nat := padicValNat 2 m

/-- float.hpp 1453–1454 mantissa_hex_digcount with STRF_HAS_COUNTR_ZERO -/
def mantissaHexDigcountCtz (m : Nat) : Int := 13 - (countrZero m / 4 : Nat)

/-- float.hpp 1608–1615: rounding of the mantissa -/
def roundMantissa (precision : Nat) (m : Nat) : Nat :=
  let d := 2 ^ ((13 - precision) * 4)
  let low := m % d
  if low > d / 2 ∨ (low = d / 2 ∧ m / d % 2 = 1) then m + d else m

/-- float.hpp 1573–1627 init_hex_double_printer_data. (`data.mantissa & d` where `d = 1 << s` is bit `s`.) -/
def initHex (f : FloatFmt) (width : Int) (al : Align) (d : Data) : Option (Data × Res) :=
  let d := { d with form := .hex, sub := d.sub + 5 }
  let extra : Int := if f.precision ≥ 0 then f.precision else 0
  let d :=
    if d.subnormal ∧ d.m = 0 then
      let point := decide (extra ≠ 0) || f.showpoint
      { d with digcount := 0, sep := 1, e := 0, extra := extra, showpoint := point, sub := d.sub + 1 + b2i point }
    else
      let d := { d with sep := exponentHexDigcount d.e, sub := d.sub + exponentHexDigcount d.e }
      if d.m = 0 then
        let point := decide (extra ≠ 0) || f.showpoint
        { d with digcount := 0, extra := extra, showpoint := point, sub := d.sub + b2i point }
      else
        let dc := mantissaHexDigcount d.m
        if f.precision < 0 then { d with digcount := dc, extra := 0, showpoint := true, sub := d.sub + (1 + dc) }
        else if f.precision ≥ dc then
          { d with digcount := dc, showpoint := true, sub := d.sub + (1 + dc), extra := f.precision - dc }
        else
          let point := decide (f.precision ≠ 0) || f.showpoint
          { d with extra := 0, m := roundMantissa f.precision.toNat d.m, digcount := f.precision, showpoint := point,
                   sub := d.sub + (b2i point + f.precision) }
  initFill d width (max (d.sub + d.extra) d.pad0) al

/-- float.hpp 1629–1675 init_double_data_with_precision_general_1digit -/
def general1digit (grp : Nat) (precision width : Int) (al : Align) (alt : Bool) (d : Data) : Option (Data × Res) :=
  let precision := if precision = 0 then 1 else precision
  let d :=
    if d.e < -4 ∨ precision ≤ d.e then
      let d := { d with form := .sci, sub := b2i d.showsign + 5 + c2i (d.e > 99 ∨ d.e < -99) }
      if alt then { d with showpoint := true, extra := precision - 1, sub := d.sub + (precision - 1 + 1) }
      else { d with showpoint := false }
    else
      let d := { d with form := .fixed, sub := b2i d.showsign }
      if d.e < 0 then
        let d := { d with showpoint := true, sub := 2 - d.e }
        if alt then { d with extra := precision - 1, sub := d.sub + (precision - 1) } else d
      else
        let intDigcount := 1 + d.e
        let sep : Int := separatorsCount grp intDigcount.toNat
        let d := { d with showpoint := alt, sep := sep, sub := 1 + d.e + sep + b2i alt }
        if alt ∧ precision > intDigcount then
          { d with extra := precision - intDigcount, sub := d.sub + (precision - intDigcount) } else d
  initFill d width (max d.sub d.pad0) al

/-- float.hpp 1777–1790: the loop that removes trailing zeros; the result says whether there are fractional digits. `none` if it
does not end within `fuel` turns. -/
def trimLoop (intDigcount : Int) : Nat → Data → Option (Data × Bool)
  | 0, _ => none
  | fuel + 1, d =>
    if d.digcount ≤ intDigcount then some (d, false)
    else if d.m % 10 ≠ 0 then some (d, true)
    else trimLoop intDigcount fuel { d with m := d.m / 10, digcount := d.digcount - 1, sub := d.sub - 1, e := d.e + 1 }

/-- float.hpp 1759–1767, 1825–1837, 1905–1913 (three copies): `-xz` digits are removed, and the rest rounded to the nearest integer,
ties to even -/
def dropDigits (xz : Int) (d : Data) : Option Data :=
  (pow10 (-xz)).map fun p10 =>
    let remainder := d.m % p10
    let m := d.m / p10
    let middle := p10 / 2
    let m := if remainder > middle ∨ (remainder = middle ∧ m % 2 = 1) then m + 1 else m
    { d with digcount := d.digcount + xz, e := d.e - xz, m := m }

/-- float.hpp 1768, 1838, 1914: after rounding up, is there one digit more? (If it was not rounded up, there is not.) -/
def carried (d : Data) : Option Bool := (pow10 d.digcount).map fun p => decide (d.m = p)

/-- float.hpp 1757–1798: `remove_fractional_trailing_digits` and `end` -/
def generalRemove (grp : Nat) (precision width : Int) (al : Align) (showpoint : Bool) (xz intDigcount : Int) (d : Data) :
    Option (Data × Res) :=
  (dropDigits xz d).bind fun d =>
  (carried d).bind fun c =>
  if c then
    general1digit grp precision width al showpoint { d with m := 1, e := d.e + d.digcount, digcount := 1 }
  else
    (trimLoop intDigcount 20 d).bind fun r =>
    let d := { r.1 with showpoint := showpoint || r.2 }
    let d := { d with sub := d.sub + b2i d.showpoint }
    initFill d width (max d.sub d.pad0) al

/-- float.hpp 1793–1798: `end` -/
def generalEnd (width : Int) (al : Align) (d : Data) : Option (Data × Res) :=
  let d := { d with sub := d.sub + b2i d.showpoint }
  initFill d width (max d.sub d.pad0) al

/-- float.hpp 1725, 1895, 1967, 2022 `if (grouping.any_separator(n)) sep_count = grouping.separators_count(n)`; `n` may be negative -/
def sepCount (grp : Nat) (n : Int) : Int := if anySeparator grp n.toNat then separatorsCount grp n.toNat else 0

/-- float.hpp 1677–1799 init_double_data_with_precision_general -/
def withPrecisionGeneral (grp : Nat) (precision width : Int) (al : Align) (showpoint : Bool) (d : Data) :
    Option (Data × Res) :=
  let d := { d with sep := 0, digcount := countDigits 10 8 d.m }
  let p := if precision ≠ 0 then precision else 1
  let intDigcount := d.digcount + d.e
  if intDigcount < -3 ∨ intDigcount > p then
    let sciExp := d.digcount + d.e - 1
    let d := { d with form := .sci, sub := d.sub + (4 + c2i (sciExp > 99 ∨ sciExp < -99)) }
    let xz := p - d.digcount
    if xz < 0 then generalRemove grp precision width al showpoint xz 1 { d with sub := d.sub + p }
    else if showpoint then generalEnd width al { d with extra := xz, sub := d.sub + p, showpoint := true }
    else generalEnd width al { d with sub := d.sub + d.digcount, showpoint := decide (d.digcount > 1) }
  else
    let d := { d with form := .fixed, sep := sepCount grp intDigcount, sub := d.sub + sepCount grp intDigcount }
    if d.e ≥ 0 then
      let d := { d with sub := d.sub + intDigcount }
      let d := if showpoint ∧ p > intDigcount then
          { d with extra := p - intDigcount, sub := d.sub + (p - intDigcount) } else d
      generalEnd width al { d with showpoint := showpoint }
    else
      let d := { d with sub := d.sub + (if d.e ≤ -d.digcount then 1 - d.e else d.digcount) }
      let xz := p - d.digcount
      if xz < 0 then generalRemove grp precision width al showpoint xz intDigcount { d with sub := d.sub - -xz }
      else
        let d := { d with showpoint := true }
        let d := if showpoint then { d with extra := xz, sub := d.sub + xz } else d
        generalEnd width al d

/-- float.hpp 1801–1855 init_double_data_with_precision_scientific -/
def withPrecisionSci (precision width : Int) (al : Align) (showpoint : Bool) (d : Data) : Option (Data × Res) :=
  let d := { d with sep := 0, form := .sci, digcount := countDigits 10 8 d.m }
  let sciExp := d.digcount + d.e - 1
  let fracDigits := d.digcount - 1
  let point := showpoint || decide (precision ≠ 0)
  let d := { d with showpoint := point, sub := d.sub + b2i point + (5 + precision) + c2i (sciExp > 99 ∨ sciExp < -99) }
  let xz := precision - fracDigits
  (if xz ≥ 0 then some { d with extra := xz }
   else
    (dropDigits xz { d with extra := 0 }).bind fun d =>
    (carried d).map fun c =>
    if c then
      let d := { d with e := d.e + d.digcount }
      let d := if d.e = 100 then { d with sub := d.sub + 1 } else if d.e = -99 then { d with sub := d.sub - 1 } else d
      { d with m := 1, digcount := 1, extra := precision }
    else d).bind fun d =>
  initFill d width (max d.sub d.pad0) al

/-- float.hpp 1857–1934 init_double_data_with_precision_fixed -/
def withPrecisionFixed (grp : Nat) (precision width : Int) (al : Align) (showpoint : Bool) (d : Data) :
    Option (Data × Res) :=
  let point := showpoint || decide (precision ≠ 0)
  let d := { d with sep := 0, digcount := countDigits 10 8 d.m, showpoint := point, form := .fixed, sub := d.sub + b2i point }
  let fracDigits := if d.e < 0 then -d.e else 0
  let xz := precision - fracDigits
  (if xz ≤ -d.digcount then
    let d := { d with sub := d.sub + (1 + precision) }
    (pow10 d.digcount).map fun p10 =>
      if xz = -d.digcount ∧ d.m > p10 / 2 then { d with e := d.e + d.digcount, m := 1, digcount := 1 }
      else { d with extra := precision, digcount := 1, m := 0, e := 0, sep := 0 }
   else
    let intDigcount := if d.digcount > -d.e then d.digcount + d.e else 1
    let d := { d with sep := sepCount grp intDigcount, sub := d.sub + sepCount grp intDigcount + (intDigcount + precision) }
    if xz ≥ 0 then some { d with extra := xz }
    else
      (dropDigits xz { d with extra := 0 }).bind fun d =>
      (carried d).map fun c =>
      if c then
        let d := { d with e := d.e + d.digcount, m := 1, digcount := 1 }
        if d.e ≤ 0 then { d with extra := precision + d.e } else { d with extra := precision, sub := d.sub + 1 }
      else d).bind fun d =>
  initFill d width (max d.sub d.pad0) al

/-- float.hpp 1936–1984 init_double_data_without_precision_general -/
def withoutPrecisionGeneral (grp : Nat) (width : Int) (al : Align) (showpoint : Bool) (d : Data) : Option (Data × Res) :=
  let d := { d with sep := 0, digcount := countDigits 10 8 d.m }
  let sciShowpoint := showpoint || decide (d.digcount ≠ 1)
  let sciSub := 4 + b2i sciShowpoint
  let digPlusE := d.digcount + d.e
  let fixedSub := if d.e ≥ 0 then d.e + b2i showpoint else if digPlusE ≤ 0 then 2 - digPlusE else 1
  let sepc := sepCount grp digPlusE
  let sci := { d with form := .sci, showpoint := sciShowpoint,
                      sub := d.sub + d.digcount + sciSub + c2i (d.digcount + d.e - 1 > 99 ∨ d.digcount + d.e - 1 < -99) }
  let d :=
    if sciSub < fixedSub then sci
    else if anySeparator grp digPlusE.toNat ∧ fixedSub + sepc > sciSub then sci
    else { d with sep := sepc, form := .fixed, showpoint := showpoint || decide (d.e < 0),
                  sub := d.sub + (fixedSub + sepc) + d.digcount }
  initFill d width (max d.sub d.pad0) al

/-- float.hpp 1986–2007 init_double_data_without_precision_scientific -/
def withoutPrecisionSci (width : Int) (al : Align) (showpoint : Bool) (d : Data) : Option (Data × Res) :=
  let d := { d with sep := 0, form := .sci, digcount := countDigits 10 8 d.m }
  let sciExp := d.digcount + d.e - 1
  let point := showpoint || decide (d.digcount ≠ 1)
  let d := { d with showpoint := point, sub := d.sub + (4 + b2i point) + c2i (sciExp > 99 ∨ sciExp < -99) + d.digcount }
  initFill d width (max d.sub d.pad0) al

/-- float.hpp 2009–2037 init_double_data_without_precision_fixed -/
def withoutPrecisionFixed (grp : Nat) (width : Int) (al : Align) (showpoint : Bool) (d : Data) : Option (Data × Res) :=
  let d := { d with sep := 0, form := .fixed, digcount := countDigits 10 8 d.m,
                    showpoint := showpoint || decide (d.e < 0) }
  let intDigcount := d.digcount + d.e
  let d := { d with sep := sepCount grp intDigcount, sub := d.sub + sepCount grp intDigcount }
  let d := { d with sub := d.sub + (if d.e ≥ 0 then intDigcount + b2i showpoint
                                    else if d.e ≤ -d.digcount then 2 - d.e else 1 + d.digcount) }
  initFill d width (max d.sub d.pad0) al

/-- float.hpp 2059–2065, 2141–2147: the first values of the members (those not assigned are zero: `data_{}`) -/
def Data.start (f : FloatFmt) (a : AlignFmt) (negative : Bool) : Data :=
  { form := .nan, sign := if negative then 0x2D else signChar f.sign,
    showsign := negative || decide (f.sign ≠ .negativeOnly),
    showpoint := false, subnormal := false,
    sub := b2i (negative || decide (f.sign ≠ .negativeOnly)), pad0 := f.pad0, extra := 0, digcount := 0, sep := 0,
    left := 0, right := 0, fill := a.fill, m := 0, e := 0 }

/-- float.hpp 2041–2119, 2123–2201 init_float_printer_data for `double` and `float` -/
def initData (toDec : ToDecimal) (T : FloatT) (bits : Nat) (grp : Nat) (f : FloatFmt) (a : AlignFmt) : Option (Data × Res) :=
  let width := Width.round a.width
  let be := expBits T bits
  let bm := manBits T bits
  let d := Data.start f a (signBit T bits)
  if be = 2 ^ T.eSize - 1 then
    let d := { d with form := if bm = 0 then .inf else .nan, sub := d.sub + 3 }
    initFill d (if d.pad0 > width then d.pad0 else width) (3 + b2i d.showsign) a.align
  else
    let d := { d with subnormal := decide (be = 0) }
    if f.nota = .hex then
      initHex f width a.align { d with m := bm * 2 ^ (52 - T.mSize), e := (be : Int) - T.bias + b2i d.subnormal }
    else
      let d := if be = 0 ∧ bm = 0 then { d with m := 0, e := 0 }
        else { d with m := (toDec T be bm).1, e := (toDec T be bm).2 }
      match f.nota with
      | .general =>
        if f.precision = -1 then withoutPrecisionGeneral grp width a.align f.showpoint d
        else withPrecisionGeneral grp f.precision width a.align f.showpoint d
      | .scientific =>
        if f.precision = -1 then withoutPrecisionSci width a.align f.showpoint d
        else withPrecisionSci f.precision width a.align f.showpoint d
      | _ =>
        if f.precision = -1 then withoutPrecisionFixed grp width a.align f.showpoint d
        else withPrecisionFixed grp f.precision width a.align f.showpoint d

/-! ## print_amplified_integer: the digits of an integer and zeros after them, in groups -/

/-- a field of a separator and the rest of a group -/
def putGroup (D : Dest Nat σ) (sep xs : List Nat) (s : σ) : Option σ :=
  D.poke (Dest.ensure D s (sep.length + xs.length)) (sep ++ xs)

/-- float.hpp 769–775, 942–947: the middle groups, all zeros (a do-while, entered with `n ≥ 1`) -/
def zeroGroups (D : Dest Nat σ) (sep : List Nat) (g : Nat) : Nat → σ → Option σ
  | 0, s => some s
  | n + 1, s => (putGroup D sep (List.replicate g 0x30) s).bind (zeroGroups D sep g n)

/-- float.hpp 777–786, 889–898, 949–956, 1058–1066: the low groups, all zeros -/
def zeroLow (D : Dest Nat σ) (sep : List Nat) (low : Nat) (s : σ) : Option σ :=
  if _h : low = 0 then some s
  else (putGroup D sep (List.replicate (highestGroup low) 0x30) s).bind (zeroLow D sep (popHigh low))
termination_by low
decreasing_by simp [popHigh]; omega

/-- float.hpp 749–787, 921–957 print_amplified_integer_small_separator_1 and _big_separator_1: all the digits are in the first
group -/
def amplified1 (D : Dest Nat σ) (sep : List Nat) (value numDigits : Nat) (dist : Dist) (s : σ) : Option σ :=
  (pokeField D (Dest.ensure D s numDigits) numDigits (back10 value [])).bind fun s =>
  (Dest.writeFill D s ((dist.highest : Int) - numDigits) 0x30).bind fun s =>
  if dist.middle ≠ 0 then
    (zeroGroups D sep (highestGroup dist.low) dist.middle s).bind (zeroLow D sep (popHigh dist.low))
  else zeroLow D sep dist.low s

/-- float.hpp 819–830, 990–1000: middle groups with digits only; the result says how many middle groups are left -/
def digitGroups (D : Dest Nat σ) (sep : List Nat) (g : Nat) : Nat → List Nat → σ → Option (σ × List Nat × Nat)
  | 0, ds, s => some (s, ds, 0)
  | n + 1, ds, s =>
    if ds.length ≥ g then (putGroup D sep (ds.take g) s).bind (digitGroups D sep g n (ds.drop g))
    else some (s, ds, n + 1)

/-- float.hpp 845–849: the middle groups of zeros after the digits, small separator -/
def smallZeros (D : Dest Nat σ) (sep g : Nat) : Nat → σ → Option σ
  | 0, s => some s
  | n + 1, s => (Dest.put D s sep).bind fun s => (Dest.writeFill D s g 0x30).bind (smallZeros D sep g n)

/-- float.hpp 833–849, 1003–1020: the group in which the digits end, and the middle groups after it. With a small separator the
digits and the zeros of the group are written in two steps. -/
def endDigits (D : Dest Nat σ) (big : Bool) (sep : List Nat) (g n : Nat) (ds : List Nat) (s : σ) : Option σ :=
  if big then
    if ds.length > 0 then
      (putGroup D sep (ds ++ List.replicate (g - ds.length) 0x30) s).bind (zeroGroups D sep g (n - 1))
    else zeroGroups D sep g n s
  else
    if ds.length > 0 then
      (putGroup D sep ds s).bind fun s =>
      (Dest.writeFill D s ((g : Int) - ds.length) 0x30).bind (smallZeros D (sep.headD 0) g (n - 1))
    else smallZeros D (sep.headD 0) g n s

/-- float.hpp 859–871, 1030–1042: low groups with digits only: all but the last group with digits. Result: the digits that are left,
and the low groups after the one they belong to, which is the current one (`g`). -/
def lowDigits (D : Dest Nat σ) (sep : List Nat) (g low : Nat) (ds : List Nat) (s : σ) : Option (σ × List Nat × Nat × Nat) :=
  if ds.length > g then
    if _h : low = 0 then none
    else (putGroup D sep (ds.take g) s).bind (lowDigits D sep (highestGroup low) (popHigh low) (ds.drop g))
  else some (s, ds, g, low)
termination_by low
decreasing_by simp [popHigh]; omega

/-- float.hpp 853–898, 1025–1066: `lower_groups` and `lower_groups_in_trailing_zeros` -/
def lowerGroups (D : Dest Nat σ) (sep : List Nat) (low : Nat) (ds : List Nat) (s : σ) : Option σ :=
  if ds.length > 0 then
    (lowDigits D sep (highestGroup low) (popHigh low) ds s).bind fun r =>
    (putGroup D sep r.2.1 r.1).bind fun s =>
    (if r.2.2.1 > r.2.1.length then
      D.poke (Dest.ensure D s (r.2.2.1 - r.2.1.length)) (List.replicate (r.2.2.1 - r.2.1.length) 0x30)
     else some s).bind fun s =>
    zeroLow D sep r.2.2.2 s
  else zeroLow D sep low s

/-- float.hpp 789–899, 959–1067 print_amplified_integer_small_separator_2 and _big_separator_2. The digits are written to a buffer;
`none` if there are not `numDigits` of them (afterwards `num_digits` is the number of digits not yet copied). -/
def amplified2 (D : Dest Nat σ) (big : Bool) (sep : List Nat) (value numDigits : Nat) (dist : Dist) (s : σ) : Option σ :=
  let digits := back10 value []
  if digits.length ≠ numDigits then none else
  (D.poke (Dest.ensure D s dist.highest) (digits.take dist.highest)).bind fun s =>
  let ds := digits.drop dist.highest
  if dist.middle ≠ 0 then
    let g := highestGroup dist.low
    let low := popHigh dist.low
    (digitGroups D sep g dist.middle ds s).bind fun r =>
    if r.2.2 = 0 then lowerGroups D sep low r.2.1 r.1
    else (endDigits D big sep g r.2.2 r.2.1 r.1).bind (zeroLow D sep low)
  else lowerGroups D sep dist.low ds s

/-- float.hpp 902–919, 1069–1088 print_amplified_integer_small_separator, print_amplified_integer_big_separator -/
def amplified (D : Dest Nat σ) (big : Bool) (sep : List Nat) (value w numDigits zeros : Nat) (s : σ) : Option σ :=
  (distribute w (numDigits + zeros)).bind fun dist =>
  if numDigits ≤ dist.highest then amplified1 D sep value numDigits dist s
  else amplified2 D big sep value numDigits dist s

/-! ## punct_double_printer -/

/-- float.hpp 2324–2332 the members of punct_double_printer. `unitBits` is the number of bits of `CharT`. -/
structure Printer where
  grouping : Nat
  sepSize : Nat
  pointSize : Nat
  point : Nat
  sep : Nat
  lc : Lettercase
  data : Data
deriving DecidableEq, Repr

/-- what the printer adds to the premeasurements: see IntPrinter.Pre -/
abbrev Pre := IntPrinter.Pre

/-- float.hpp: the size of the fill characters: 2270–2273, 2301–2304 -/
def fillSize (C : Charset σ) (fill : Nat) (n : Int) : Int := if n > 0 then (C.charSize fill : Int) * n else 0

/-- float.hpp 2251–2253: the grouping, which is not used if the charset has no such separator -/
def validGrouping (C : Charset σ) (sep grouping : Nat) : Nat :=
  match C.validate sep with | none => emptyWord | some _ => grouping
/-- float.hpp 2254–2256: the size of the separator -/
def validSepSize (C : Charset σ) (sep : Nat) : Nat := match C.validate sep with | none => 1 | some n => n

/-- float.hpp 2230–2281 the constructor for a format with punctuation; `np10`, `np16` are the numpunct facets -/
def Printer.makePunct (C : Charset σ) (toDec : ToDecimal) (lc : Lettercase) (np10 np16 : Numpunct.Facet) (T : FloatT)
    (bits : Nat) (f : FloatFmt) (a : AlignFmt) : Option (Printer × Pre) :=
  let point := if f.punctuate then (if f.nota ≠ .hex then np10.decimalPoint else np16.decimalPoint) else 0x2E
  let sep := if f.punctuate then np10.thousandsSep else 0x2C
  let grouping := if f.punctuate then validGrouping C sep np10.grouping else emptyWord
  let sepSize := if f.punctuate then validSepSize C sep else 1
  (initData toDec T bits grouping f a).map fun r =>
    let pointSize := if r.1.showpoint then C.charSize point else 0
    (⟨grouping, sepSize, pointSize, point, sep, lc, r.1⟩,
      ⟨r.2.fillcount + r.2.content,
        (r.2.content + fillSize C r.1.fill r.2.fillcount +
          (if f.nota ≠ .hex ∧ r.1.sep ≠ 0 then r.1.sep * ((sepSize : Int) - 1) else 0) +
          (if r.1.showpoint then (pointSize : Int) - 1 else 0)).toNat⟩)

/-- float.hpp 2283–2306 the constructor for a format without punctuation -/
def Printer.makePlain (C : Charset σ) (toDec : ToDecimal) (lc : Lettercase) (T : FloatT) (bits : Nat) (f : FloatFmt)
    (a : AlignFmt) : Option (Printer × Pre) :=
  (initData toDec T bits emptyWord f a).map fun r =>
    (⟨emptyWord, 1, b2n r.1.showpoint, 0x2E, 0x2C, lc, r.1⟩,
      ⟨r.2.fillcount + r.2.content, (r.2.content + fillSize C r.1.fill r.2.fillcount).toNat⟩)

/-- float.hpp 2387–2391, 2403–2407, 2443–2447, 2496–2499: the decimal point, encoded -/
def pointUnits (C : Charset σ) (point : Nat) : List Nat := if point < 0x80 then [point] else C.encodeChar point

/-- float.hpp: the sign: 2364–2366, 2462–2464, 2544–2546 -/
def putSign (D : Dest Nat σ) (d : Data) (s : σ) : Option σ := if d.showsign then Dest.put D s d.sign else some s

/-- float.hpp 730–747 write_int_with_leading_zeros<10>: `none` if the value has more than `digcount` digits -/
def writeLeadingZeros (D : Dest Nat σ) (v digcount : Nat) (s : σ) : Option σ :=
  let ds := back10 v []
  if ds.length ≤ digcount then
    D.poke (Dest.ensure D s digcount) (List.replicate (digcount - ds.length) 0x30 ++ ds)
  else none

/-- float.hpp 2372–2384: the digits and trailing zeros, if `e10 >= 0`. With a separator of one unit it is cast to CharT. -/
def printInteger (D : Dest Nat σ) (C : Charset σ) (unitBits : Nat) (p : Printer) (s : σ) : Option σ :=
  let d := p.data
  if d.sep = 0 then
    (writeInt D 10 .lower d.m d.digcount.toNat s).bind fun s => Dest.writeFill D s d.e 0x30
  else if p.sepSize = 1 then
    amplified D false [p.sep % 2 ^ unitBits] d.m p.grouping d.digcount.toNat d.e.toNat s
  else amplified D true (C.encodeChar p.sep) d.m p.grouping d.digcount.toNat d.e.toNat s

/-- float.hpp 2424–2439: the digits before the point, if `e10 < 0` -/
def printIntPart (D : Dest Nat σ) (C : Charset σ) (p : Printer) (v idigcount : Nat) (s : σ) : Option σ :=
  if p.data.sep = 0 then writeInt D 10 .lower v idigcount s
  else if p.sepSize = 1 then
    writeIntLittle D 10 .lower (if p.sep < 0x80 then p.sep else (C.encodeChar p.sep).headD 0) v p.grouping idigcount
      p.data.sep.toNat s
  else writeIntBig D 10 .lower (C.encodeChar p.sep) v p.grouping idigcount s

/-- float.hpp 2360–2456 print_fixed_ -/
def printFixed (D : Dest Nat σ) (C : Charset σ) (unitBits : Nat) (p : Printer) (s : σ) : Option σ :=
  let d := p.data
  (putSign D d s).bind fun s =>
  (if d.pad0 > d.sub then Dest.writeFill D s (d.pad0 - d.sub) 0x30 else some s).bind fun s =>
  if d.e ≥ 0 then
    (printInteger D C unitBits p s).bind fun s =>
    (if d.showpoint then D.poke (Dest.ensure D s p.pointSize) (pointUnits C p.point) else some s).bind fun s =>
    Dest.writeFill D s d.extra 0x30
  else
    let absE := -d.e
    if absE ≥ d.digcount then
      (D.poke (Dest.ensure D s (1 + p.pointSize)) (0x30 :: pointUnits C p.point)).bind fun s =>
      (Dest.writeFill D s (absE - d.digcount) 0x30).bind fun s =>
      (writeInt D 10 .lower d.m d.digcount.toNat s).bind fun s =>
      Dest.writeFill D s d.extra 0x30
    else
      (pow10 absE).bind fun p10 =>
      (printIntPart D C p (d.m / p10) (d.digcount - absE).toNat s).bind fun s =>
      (D.poke (Dest.ensure D s p.pointSize) (pointUnits C p.point)).bind fun s =>
      (writeLeadingZeros D (d.m % p10) absE.toNat s).bind fun s =>
      Dest.writeFill D s d.extra 0x30

/-- float.hpp 1104–1129: the digits of print_scientific_notation. With several digits they are written backwards to the end of the
field; then the first is copied to its beginning, and the point after it. -/
def sciField (numDigits pointSize digits : Nat) (printPoint : Bool) (point : List Nat) : Option (List Nat) :=
  if numDigits = 1 then some ((0x30 + digits) :: (if printPoint then point else []))
  else
    let ds := back10 digits []
    if ds.length = numDigits then
      let field := List.replicate pointSize 0 ++ ds
      some (overwrite (overwrite field 0 [ds.headD 0]) 1 point)
    else none

/-- float.hpp 1090–1163 print_scientific_notation -/
def printSciNotation (D : Dest Nat σ) (C : Charset σ) (lc : Lettercase) (digits numDigits point pointSize : Nat) (exponent : Int)
    (showpoint : Bool) (zeros : Int) (s : σ) : Option σ :=
  let printPoint := showpoint || decide (numDigits ≠ 1)
  (sciField numDigits pointSize digits printPoint (pointUnits C point)).bind fun xs =>
  (D.poke (Dest.ensure D s (numDigits + (if printPoint then pointSize else 0))) xs).bind fun s =>
  (Dest.writeFill D s zeros 0x30).bind fun s =>
  D.poke (Dest.ensure D s (if exponent.natAbs ≥ 100 then 5 else 4)) (expChars lc exponent)

/-- float.hpp 2458–2472 print_scientific_ -/
def printScientific (D : Dest Nat σ) (C : Charset σ) (p : Printer) (s : σ) : Option σ :=
  let d := p.data
  (putSign D d s).bind fun s =>
  (Dest.writeFill D s (d.pad0 - d.sub) 0x30).bind fun s =>
  printSciNotation D C p.lc d.m d.digcount.toNat p.point p.pointSize (d.e + d.digcount - 1) d.showpoint d.extra s

/-- float.hpp 2503–2516: the 13 hexadecimal digits of the mantissa -/
def nibbles (m : Nat) : List Nat :=
  [m / 2 ^ 48 % 16, m / 2 ^ 44 % 16, m / 2 ^ 40 % 16, m / 2 ^ 36 % 16, m / 2 ^ 32 % 16, m / 2 ^ 28 % 16,
   m / 2 ^ 24 % 16, m / 2 ^ 20 % 16, m / 2 ^ 16 % 16, m / 2 ^ 12 % 16, m / 2 ^ 8 % 16, m / 2 ^ 4 % 16, m % 16]

/-- float.hpp 2494–2525: from the first digit to the last digit of the mantissa; `none` if more than 13 are read -/
def hexMiddle (C : Charset σ) (p : Printer) : Option (List Nat) :=
  let d := p.data
  let head := (0x30 ||| (if d.subnormal then 0 else 1)) :: (if d.showpoint then pointUnits C p.point else [])
  if d.m ≠ 0 then
    if d.digcount.toNat ≤ 13 then some (head ++ ((nibbles d.m).take d.digcount.toNat).map (hexChar p.lc)) else none
  else some head

/-- float.hpp 2532–2537: the binary exponent; `none` if its digits do not fill their field -/
def hexExp (p : Printer) : Option (List Nat) :=
  let ds := back10 p.data.e.natAbs []
  if ds.length = p.data.sep.toNat then
    some ([0x50 ||| (if p.lc ≠ .upper then 32 else 0), 0x2B + (if p.data.e < 0 then 2 else 0)] ++ ds)
  else none

/-- float.hpp 2474–2538 print_hexadecimal_ -/
def printHex (D : Dest Nat σ) (C : Charset σ) (p : Printer) (s : σ) : Option σ :=
  let d := p.data
  let subSize := (d.sub + p.pointSize - b2i d.showpoint).toNat
  let s := Dest.ensure D s subSize
  let lead := (if d.showsign then [d.sign] else []) ++ [0x30, 0x58 ||| (if p.lc ≠ .upper then 32 else 0)]
  let content := d.sub + d.extra
  (hexMiddle C p).bind fun mid =>
  (hexExp p).bind fun ex =>
  (if d.pad0 > content then
    (D.poke s lead).bind fun s =>
    (Dest.writeFill D s (d.pad0 - content) 0x30).bind fun s =>
    some (Dest.ensure D s (subSize - 2 - b2n d.showsign), [])
   else some (s, lead)).bind fun r =>
  if d.extra ≠ 0 then
    (D.poke r.1 (r.2 ++ mid)).bind fun s =>
    (Dest.writeFill D s d.extra 0x30).bind fun s =>
    D.poke (Dest.ensure D s (2 + d.sep.toNat)) ex
  else D.poke r.1 (r.2 ++ mid ++ ex)

/-- float.hpp 2540–2552 print_inf_or_nan_ -/
def printInfOrNan (D : Dest Nat σ) (p : Printer) (s : σ) : Option σ :=
  (putSign D p.data s).bind fun s =>
  D.poke (Dest.ensure D s 3) (if p.data.form = .nan then nanChars p.lc else infChars p.lc)

/-- float.hpp 2335–2358 punct_double_printer::operator() -/
def Printer.print (D : Dest Nat σ) (C : Charset σ) (unitBits : Nat) (p : Printer) (s : σ) : Option σ :=
  (printFill C p.data.left p.data.fill s).bind fun s =>
  (match p.data.form with
    | .fixed => printFixed D C unitBits p s
    | .sci => printScientific D C p s
    | .hex => printHex D C p s
    | _ => printInfOrNan D p s).bind fun s =>
  printFill C p.data.right p.data.fill s

end Strf.Float

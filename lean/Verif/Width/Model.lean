import Verif.Basic.CInt
/-
Model of `strf::width_t` (include/strf/width_t.hpp). A width is its underlying `int32_t` value, an `Int`;
one unit is 1/65536 of a column.  `none` is undefined behaviour (signed overflow).
-/
namespace Strf.Width
open Strf.CInt

/-- width_t.hpp:453 `underlying_max_` -/
def wmax : Int := 2147483647
/-- width_t.hpp:454 `underlying_min_` -/
def wmin : Int := -2147483648

/-- width_t.hpp:50-53 `width_t(int16_t)`. -/
def ofI16 (x : Int) : Int := i32 (u32 (u32 (u16 x) * 65536))
/-- width_t.hpp:61-68 `width_t(IntT)` for a signed type wider than 16 bits. -/
def ofInt (x : Int) : Int :=
  if x < -0x8000 then wmin else if x > 0x7FFF then wmax else i32 (u32 (u32 (u16 x) * 65536))
/-- width_t.hpp:76-81 `width_t(UIntT)` for an unsigned type. -/
def ofUInt (x : Int) : Int := if x ≤ 0x7FFF then i32 (x * 65536) else wmax
/-- width_t.hpp:98-101 `sat_cast(UIntT)`. -/
def satCastU (x : Int) : Int := if x < 0x8000 then i32 (x * 65536) else wmax
/-- width_t.hpp:108-115 `sat_cast(IntT)`. -/
def satCastI (x : Int) : Int :=
  if x ≥ 0x8000 then wmax else if x ≤ -0x8000 then wmin else i32 (u32 (u32 (i32 x) * 65536))

/-- width_t.hpp:183-190 `floor()`. `leftbits | (v >> 16)` is modelled as a sum: the two have no common bit. -/
def floor (v : Int) : Int :=
  let leftbits := if v < 0 then 0xFFFF0000 else 0
  let result := leftbits + u32 v / 65536
  i16 (i32 result)
/-- width_t.hpp:191-195 `non_negative_floor()`. -/
def nnFloor (v : Int) : Int := u16 (if v ≥ 0 then v / 65536 else 0)
/-- width_t.hpp:196-200 `non_negative_ceil()`. -/
def nnCeil (v : Int) : Int :=
  let nn := u32 (if v ≥ 0 then v else 0)
  u32 (nn + 0xFFFF) / 65536
/-- width_t.hpp:201-207 `ceil()`. -/
def ceil (v : Int) : Int :=
  if v ≥ 0 then i32 (u32 (u32 v + 0xFFFF) / 65536)
  else if v = wmin then -0x8000
  else -((-v) / 65536)
/-- width_t.hpp:208-217 `round()`. `value_ & 0xFFFF` is `v % 65536`. -/
def round (v : Int) : Int :=
  let q := v % 65536
  if v ≥ 0 then
    let f := v / 65536
    if q ≤ 0x8000 then f else f + 1
  else
    let f := floor v
    if q ≥ 0x8000 then f + 1 else f

/-- width_t.hpp:222-225 unary minus -/
def neg (v : Int) : Option Int := chk32 (-v)
/-- width_t.hpp:227-231 `operator+=` -/
def add (v w : Int) : Option Int := chk32 (v + w)
/-- width_t.hpp:232-236 `operator-=` -/
def sub (v w : Int) : Option Int := chk32 (v - w)

/-- the final clamp shared by the text of width_t.hpp:242-244, 255-257, 269-271, 280-282, 293-295, 306-308 -/
def sat (result : Int) : Int :=
  if result ≥ wmax then wmax else if result ≤ wmin then wmin else i32 result

/-- width_t.hpp:238-246 `sat_add(width_t)` -/
def satAdd (v w : Int) : Option Int := (chk64 (v + w)).map sat
/-- width_t.hpp:251-260 `sat_add(tag_i32, int32_t)` -/
def satAddI32 (v x : Int) : Option Int := (chk64 (v + i64 (u64 (u64 x * 65536)))).map sat
/-- width_t.hpp:247-250 `sat_add(tag_i16, int16_t)` -/
def satAddI16 (v x : Int) : Option Int := satAddI32 v x
/-- width_t.hpp:261-275 `sat_add(tag_i64, int64_t)` -/
def satAddI64 (v x : Int) : Option Int :=
  if x ≥ 0x10000 then some wmax
  else if x ≤ -0x10000 then some wmin
  else (chk64 (v + i64 (u64 (u64 x * 65536)))).map sat
/-- width_t.hpp:276-284 `sat_sub(width_t)` -/
def satSub (v w : Int) : Option Int := (chk64 (v - w)).map sat
/-- width_t.hpp:289-297 `sat_sub(tag_i32, int32_t)` -/
def satSubI32 (v x : Int) : Option Int := (chk64 (v - i64 (u64 (u64 x * 65536)))).map sat
/-- width_t.hpp:285-288 `sat_sub(tag_i16, int16_t)` -/
def satSubI16 (v x : Int) : Option Int := satSubI32 v x
/-- width_t.hpp:298-312 `sat_sub(tag_i64, int64_t)`; the thresholds are `max << 17` and `min << 17`. -/
def satSubI64 (v x : Int) : Option Int :=
  if x ≥ wmax * 131072 then some wmin
  else if x ≤ i64 (u64 (u64 wmin * 131072)) then some wmax
  else (chk64 (v - i64 (u64 (u64 x * 65536)))).map sat

/-- width_t.hpp:385-399 `sat_mul(width_t)`. `tmp / 0x10000` truncates toward zero. -/
def satMul (v w : Int) : Option Int :=
  (chk64 (v * w)).map fun tmp =>
    if tmp ≥ 140737488355328 then 0x7FFFFFFF
    else if tmp < i64 (u64 (u64 wmin * 65536)) then wmin
    else i32 (Int.tdiv tmp 0x10000)
/-- width_t.hpp:313-316 `sat_mul(tag_i16, int16_t)` -/
def satMulI16 (v x : Int) : Option Int := satMul v (ofI16 x)
/-- width_t.hpp:318-337 `sat_mul(tag_i64, int64_t)` -/
def satMulI64 (v x : Int) : Option Int :=
  if v = 0 then some v
  else
    let negative := xor (v < 0 : Bool) (x < 0 : Bool)
    let fallback := if negative then wmin else wmax
    if wmin ≤ x ∧ x ≤ wmax then
      (chk64 (x * v)).map fun result =>
        if wmin ≤ result ∧ result ≤ wmax then i32 result else fallback
    else some fallback
/-- width_t.hpp:338-355 `sat_mul(tag_u64, uint64_t)` -/
def satMulU64 (v x : Int) : Option Int :=
  if v = 0 then some v
  else
    let fallback := if v ≥ 0 then wmax else wmin
    if x ≤ u64 wmax then
      (chk64 (i64 x * v)).map fun result =>
        if wmin ≤ result ∧ result ≤ wmax then i32 result else fallback
    else some fallback
/-- width_t.hpp:357-369 `sat_mul(tag_i32, int32_t)` -/
def satMulI32 (v x : Int) : Option Int :=
  (chk64 (x * v)).map fun result =>
    if wmin ≤ result ∧ result ≤ wmax then i32 result
    else if xor (v < 0 : Bool) (x < 0 : Bool) then wmin else wmax
/-- width_t.hpp:371-382 `sat_mul(tag_u32, uint32_t)` -/
def satMulU32 (v x : Int) : Option Int :=
  (chk64 (i64 x * i64 (u64 v))).map fun result =>
    if wmin ≤ result ∧ result ≤ wmax then i32 result
    else if v ≥ 0 then wmax else wmin

/-- width_t.hpp:407-414 `operator/=`. `none` also for division by zero (undefined). -/
def div (v w : Int) : Option Int :=
  if w = 0 then none
  else (chk64 (Int.tdiv (i64 (u64 (u32 v * 65536))) w)).map i32

/-- width_t.hpp:416-420 `compare(tag_i16, int16_t)`: subtraction in `int`. -/
def compareI16 (v x : Int) : Option Int := chk32 (v - i32 (u32 (u32 (u16 x) * 65536)))
/-- width_t.hpp:421-425 `compare(tag_u16, uint16_t)` -/
def compareU16 (v x : Int) : Option Int :=
  if x ≥ 0x8000 then some (-1) else chk32 (v - i32 (u32 (u32 x * 65536)))
/-- width_t.hpp:427-431 `compare(tag_i32, int32_t)` -/
def compareI32 (v x : Int) : Option Int := chk64 (v - i64 (u64 (u64 x * 65536)))
/-- width_t.hpp:432-436 `compare(tag_u32, uint32_t)` -/
def compareU32 (v x : Int) : Option Int := chk64 (v - i64 (u64 (u64 x * 65536)))
/-- width_t.hpp:437-443 `compare(tag_i64, int64_t)` -/
def compareI64 (v x : Int) : Option Int :=
  if x ≥ 0x8000 then some (-1) else if x < -0x8000 then some 1
  else chk64 (v - i64 (u64 (u64 x * 65536)))
/-- width_t.hpp:444-448 `compare(tag_u64, uint64_t)` -/
def compareU64 (v x : Int) : Option Int :=
  if x ≥ 0x8000 then some (-1) else chk64 (v - i64 (u64 (x * 65536)))

/-! ### `_w` literals: width_t.hpp:656-856 -/

/-- width_t.hpp:678-717 `mp_round_up`: should the digits dropped after the last kept one round it up? -/
def roundUp (preferUp : Bool) : List Nat → Bool
  | [] => false
  | d :: ds => d > 5 || (d == 5 && (preferUp || ds.any (· != 0)))

/-- width_t.hpp:724-759 `dec_frac_digits<N, D...>`: (fvalue, fdigcount) of the fractional digits, of which at
most `N` are kept; unsigned 64-bit arithmetic.  Digits are given as numbers 0..9. -/
def fracDigits : Nat → List Nat → Nat × Nat
  | _, [] => (0, 0)
  | 0, _ :: _ => (0, 0)
  | 1, d :: ds => (d + (if roundUp (d % 2 == 1) ds then 1 else 0), 1)
  | n + 2, d :: ds =>
    let r := fracDigits (n + 1) ds
    ((d * (10 ^ r.2 % 2^64) + r.1) % 2^64, r.2 + 1)

/-- width_t.hpp:761-820 `mp_fp_parser_2` for the digits before the decimal point (sign characters cannot occur
in a user-defined numeric literal; hexadecimal and exponent forms are not modelled): value and digit count. -/
def intDigits : List Nat → Nat × Nat
  | [] => (0, 0)
  | d :: ds =>
    let r := intDigits ds
    ((d * (10 ^ r.2 % 2^64) + r.1) % 2^64, r.2 + 1)

/-- width_t.hpp:822-838 `mp_fixed_point_parser<16, ...>::abs_value` for the literal with integer digits `is` and
fractional digits `fs` -/
def literalAbs (is fs : List Nat) : Nat :=
  let f := fracDigits 16 fs
  let divisor := 10 ^ f.2 % 2^64
  let frac_ := (f.1 * 65536 % 2^64) / divisor
  let rem_ := (f.1 * 65536 % 2^64) % divisor
  let round_up := rem_ > divisor / 2 || (rem_ == divisor / 2 && frac_ % 2 == 1)
  let frac := frac_ + (if round_up then 1 else 0)
  ((intDigits is).1 * 65536 % 2^64 + frac) % 2^64

/-- width_t.hpp:836-855 `mp_width_parser::value` and `operator""_w`; `none` = rejected at compile time. -/
def literal (is fs : List Nat) : Option Int :=
  let a := literalAbs is fs
  if a < 0x100000000 then some (i32 a) else none

end Strf.Width

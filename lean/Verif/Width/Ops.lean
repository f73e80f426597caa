import Verif.Width.Model
/-!
# Operators between widths and integers

include/strf/width_t.hpp 457–654. The operators take `width_t` or `std::int16_t`. In `w + i` with an integer `i` of any other type two overloads fit, the one for
`width_t` (with the constructor `width_t(IntT)`, which saturates) and the one for `std::int16_t`; that one is chosen, because a conversion between integer types is
better than one by a constructor ([over.ics.rank] of the C++ standard), and `i` is converted to `std::int16_t`, modulo 2¹⁶.
-/
namespace Strf.Width
open Strf.CInt

/-- width_t.hpp 515–654: an operand: a width (its underlying value), or an integer of any type -/
inductive Operand
  | width (v : Int)
  | int (x : Int)
deriving DecidableEq

/-- width_t.hpp 515–654: the operators -/
inductive BinOp
  | plus
  | minus
  | times
  | over
deriving DecidableEq

/-- width_t.hpp 515–564: the comparisons -/
inductive CmpOp
  | eq
  | ne
  | lt
  | le
  | gt
  | ge
deriving DecidableEq

/-- width_t.hpp 227–236, 400–414: what the operators of `width_t` and `width_t` call -/
def BinOp.members : BinOp → Int → Int → Option Int
  | .plus => add
  | .minus => sub
  | .times => satMul
  | .over => div

/-- width_t.hpp 566–654: `a ∘ b`; `none` is undefined behaviour. Two integers: not an operator of the library. -/
def BinOp.run (o : BinOp) : Operand → Operand → Option Int
  | .width v, .width w => o.members v w
  | .int x, .width w =>
    match o with
    | .plus => add w (ofI16 (i16 x))  -- 575–579: rhs += lhs
    | _ => o.members (ofI16 (i16 x)) w  -- 592–596, 614–618, 641–645
  | .width v, .int x => o.members v (ofI16 (i16 x))  -- 581–585, 597–601, 623–627, 650–654
  | .int _, .int _ => none

/-- width_t.hpp 531–563: the comparison with zero -/
def CmpOp.zero (r : Int) : CmpOp → Bool
  | .eq => r = 0
  | .ne => r ≠ 0
  | .lt => r < 0
  | .le => r ≤ 0
  | .gt => r > 0
  | .ge => r ≥ 0

/-- width_t.hpp 531–563: `a < b` as `b > a`, and so on -/
def CmpOp.flip : CmpOp → CmpOp
  | .eq => .eq
  | .ne => .ne
  | .lt => .gt
  | .le => .ge
  | .gt => .lt
  | .ge => .le

/-- width_t.hpp 122–145: the comparisons of `width_t` and `width_t` -/
def CmpOp.members (v w : Int) : CmpOp → Bool
  | .eq => v = w
  | .ne => v ≠ w
  | .lt => v < w
  | .le => v ≤ w
  | .gt => v > w
  | .ge => v ≥ w

/-- width_t.hpp 515–564: == and != convert the integer to a width, the others use `compare`, 416–420 -/
def CmpOp.run (o : CmpOp) : Operand → Operand → Option Bool
  | .width v, .width w => some (o.members v w)
  | .width v, .int x =>
    match o with
    | .eq | .ne => some (o.members v (ofI16 (i16 x)))
    | _ => (compareI16 v (i16 x)).map fun r => o.zero r
  | .int x, .width w =>
    match o with
    | .eq | .ne => some (o.members (ofI16 (i16 x)) w)
    | _ => (compareI16 w (i16 x)).map fun r => o.flip.zero r
  | .int _, .int _ => none

/-- the types of integers that the functions `sat_add`, `sat_sub`, `sat_mul` and `compare` distinguish, width_t.hpp 28–36 -/
inductive IntTag
  | i8 | u8 | i16 | u16 | i32 | u32 | i64 | u64
deriving DecidableEq

/-- width_t.hpp 16–36: the values of the type -/
def IntTag.Has : IntTag → Int → Prop
  | .i8, x => -128 ≤ x ∧ x ≤ 127
  | .u8, x => 0 ≤ x ∧ x ≤ 255
  | .i16, x => InI16 x
  | .u16, x => InU16 x
  | .i32, x => InI32 x
  | .u32, x => InU32 x
  | .i64, x => InI64 x
  | .u64, x => InU64 x

/-- width_t.hpp 483–487, 488–492 `strf::sat_add(w, i)` and `strf::sat_add(i, w)`; the outer `none`: there is no such function, it does not compile -/
def satAddFn (v x : Int) : IntTag → Option (Option Int)
  | .i16 => some (satAddI16 v x)
  | .i32 => some (satAddI32 v x)
  | .i64 => some (satAddI64 v x)
  | _ => none

/-- width_t.hpp 477–481 `strf::sat_sub(w, i)` -/
def satSubFn (v x : Int) : IntTag → Option (Option Int)
  | .i16 => some (satSubI16 v x)
  | .i32 => some (satSubI32 v x)
  | .i64 => some (satSubI64 v x)
  | _ => none

/-- width_t.hpp 493–502 `strf::sat_mul(w, i)` and `strf::sat_mul(i, w)` -/
def satMulFn (v x : Int) : IntTag → Option (Option Int)
  | .i16 => some (satMulI16 v x)
  | .i32 => some (satMulI32 v x)
  | .u32 => some (satMulU32 v x)
  | .i64 => some (satMulI64 v x)
  | .u64 => some (satMulU64 v x)
  | _ => none

/-- width_t.hpp 504–508 `strf::compare(w, i)` -/
def compareFn (v x : Int) : IntTag → Option (Option Int)
  | .i16 => some (compareI16 v x)
  | .u16 => some (compareU16 v x)
  | .i32 => some (compareI32 v x)
  | .u32 => some (compareU32 v x)
  | .i64 => some (compareI64 v x)
  | .u64 => some (compareU64 v x)
  | _ => none

/-- width_t.hpp 509–513 `strf::compare(i, w)`: negated in the type of the result, `int` for 16 bits -/
def compareFlippedFn (x v : Int) : IntTag → Option (Option Int)
  | .i16 => some ((compareI16 v x).bind fun r => chk32 (-r))
  | .u16 => some ((compareU16 v x).bind fun r => chk32 (-r))
  | .i32 => some ((compareI32 v x).bind fun r => chk64 (-r))
  | .u32 => some ((compareU32 v x).bind fun r => chk64 (-r))
  | .i64 => some ((compareI64 v x).bind fun r => chk64 (-r))
  | .u64 => some ((compareU64 v x).bind fun r => chk64 (-r))
  | _ => none

end Strf.Width

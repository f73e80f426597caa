/-
C++ integer conversions and overflow, used by the models.

Models: `cast_i16 … cast_u64` of include/strf/detail/strf_def.hpp:385-445 (`static_cast` between integer
types, two's complement) and the built-in arithmetic of signed types, for which overflow is undefined
behaviour (represented by `none`).
-/
namespace Strf.CInt

/-- `cast_u16` (strf_def.hpp:421): value modulo 2^16. -/
def u16 (x : Int) : Int := x % 65536
/-- `cast_i16` (strf_def.hpp:427): two's complement reinterpretation modulo 2^16. -/
def i16 (x : Int) : Int := (x + 32768) % 65536 - 32768
/-- `cast_u32` (strf_def.hpp:409): value modulo 2^32. -/
def u32 (x : Int) : Int := x % 4294967296
/-- `cast_i32` (strf_def.hpp:415): two's complement reinterpretation modulo 2^32. -/
def i32 (x : Int) : Int := (x + 2147483648) % 4294967296 - 2147483648
/-- `cast_u64` (strf_def.hpp:397): value modulo 2^64. -/
def u64 (x : Int) : Int := x % 18446744073709551616
/-- `cast_i64` (strf_def.hpp:403): two's complement reinterpretation modulo 2^64. -/
def i64 (x : Int) : Int := (x + 9223372036854775808) % 18446744073709551616 - 9223372036854775808

/-- the result of a signed 32-bit operation whose exact value is `x`: undefined (`none`) on overflow -/
def chk32 (x : Int) : Option Int := if -2147483648 ≤ x ∧ x ≤ 2147483647 then some x else none
/-- the result of a signed 64-bit operation whose exact value is `x`: undefined (`none`) on overflow -/
def chk64 (x : Int) : Option Int :=
  if -9223372036854775808 ≤ x ∧ x ≤ 9223372036854775807 then some x else none

/-- `x` is a value of `int16_t`. -/
def InI16 (x : Int) : Prop := -32768 ≤ x ∧ x ≤ 32767
/-- `x` is a value of `uint16_t`. -/
def InU16 (x : Int) : Prop := 0 ≤ x ∧ x ≤ 65535
/-- `x` is a value of `int32_t`. -/
def InI32 (x : Int) : Prop := -2147483648 ≤ x ∧ x ≤ 2147483647
/-- `x` is a value of `uint32_t`. -/
def InU32 (x : Int) : Prop := 0 ≤ x ∧ x ≤ 4294967295
/-- `x` is a value of `int64_t`. -/
def InI64 (x : Int) : Prop := -9223372036854775808 ≤ x ∧ x ≤ 9223372036854775807
/-- `x` is a value of `uint64_t`. -/
def InU64 (x : Int) : Prop := 0 ≤ x ∧ x ≤ 18446744073709551615

instance (x : Int) : Decidable (InI16 x) := inferInstanceAs (Decidable (_ ∧ _))
instance (x : Int) : Decidable (InU16 x) := inferInstanceAs (Decidable (_ ∧ _))
instance (x : Int) : Decidable (InI32 x) := inferInstanceAs (Decidable (_ ∧ _))
instance (x : Int) : Decidable (InU32 x) := inferInstanceAs (Decidable (_ ∧ _))
instance (x : Int) : Decidable (InI64 x) := inferInstanceAs (Decidable (_ ∧ _))
instance (x : Int) : Decidable (InU64 x) := inferInstanceAs (Decidable (_ ∧ _))

end Strf.CInt

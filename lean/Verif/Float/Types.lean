import Mathlib.NumberTheory.Padics.PadicVal.Defs
/-!
# The floating-point types and their fields, include/strf/detail/printable_types/float.hpp

Line numbers are of that file.
-/
namespace Strf.Float

/-- float.hpp 39–108: the two floating-point types: IEEE binary32 and binary64 -/
inductive FloatT | float | double
deriving DecidableEq, Repr

/-- float.hpp 41, 67: bits of the exponent -/
def FloatT.eSize : FloatT → Nat | .float => 8 | .double => 11
/-- float.hpp 42, 68: bits of the mantissa -/
def FloatT.mSize : FloatT → Nat | .float => 23 | .double => 52
/-- float.hpp 2048, 2130: the bias of the exponent -/
def FloatT.bias : FloatT → Int | .float => 127 | .double => 1023
/-- float.hpp 39–108: the width of the unsigned integer -/
def FloatT.bits : FloatT → Nat | .float => 32 | .double => 64

/-- float.hpp 45–46, 71–72 `(bits << 1) >> (m_size + 1)`; also 2053, 2136 `(bits & 0x7FF0…) >> 52` -/
def expBits (T : FloatT) (bits : Nat) : Nat := (bits * 2) % 2 ^ T.bits / 2 ^ (T.mSize + 1)
/-- float.hpp 47, 73, 2055, 2137: the sign bit -/
def signBit (T : FloatT) (bits : Nat) : Bool := bits / 2 ^ (T.mSize + T.eSize) ≠ 0
/-- float.hpp 48, 74, 2054, 2135: the mantissa bits, `bits & 0xFFF…` -/
def manBits (T : FloatT) (bits : Nat) : Nat := bits % 2 ^ T.mSize

/-- float.hpp 27–34 `double_dec` -/
structure Dec where
  m10 : Nat
  e10 : Int
  negative : Bool
  infinity : Bool
  nan : Bool
deriving DecidableEq, Repr

/-- dragonbox.hpp 3261–3290: `dragonbox::to_decimal<T>(exponent, mantissa)`: significand and exponent -/
abbrev ToDecimal := FloatT → Nat → Nat → Nat × Int

end Strf.Float

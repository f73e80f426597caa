import Verif.Dest.Model
import Verif.Numpunct.Model
import Verif.IntDigits.Spec
/-
Model of include/strf/detail/int_digits.hpp: counting and writing the digits of unsigned integers.

Unsigned values are natural numbers; the theorems say below which bound (2^8 … 2^64). Characters are their codes.
-/
namespace Strf.IntDigits
open Strf.Dest (Dest)
open Strf.Numpunct
open Strf.IntDigits.Spec (Lettercase)

/-! ## unsigned_abs -/

/-- int_digits.hpp:81-90 `unsigned_abs(value)` for a signed type of `bits` bits. `none` if an intermediate signed
value is out of range (undefined behaviour). -/
def unsignedAbs (bits : Nat) (v : Int) : Option Nat :=
  if v ≥ 0 then some (v.toNat % 2 ^ bits)
  else
    let w := v + 1
    let m := -w
    if -(2 : Int) ^ (bits - 1) ≤ w ∧ w < 2 ^ (bits - 1) ∧ -(2 : Int) ^ (bits - 1) ≤ m ∧ m < 2 ^ (bits - 1) then
      some ((1 + m.toNat % 2 ^ bits) % 2 ^ bits)
    else none

/-! ## digits_counter -/

/-- int_digits.hpp:203-224 `digits_counter<2,1>` -/
def count2_1 (v : Nat) : Nat :=
  let n := 1
  let (v, n) := if v > 0xf then (v / 2 ^ 4, n + 4) else (v, n)
  let (v, n) := if v > 3 then (v / 2 ^ 2, n + 2) else (v, n)
  if v > 1 then n + 1 else n

/-- int_digits.hpp:226-249 `digits_counter<2,2>` -/
def count2_2 (v : Nat) : Nat :=
  let n := 1
  let (v, n) := if v > 0xff then (v / 2 ^ 8, n + 8) else (v, n)
  let (v, n) := if v > 0xf then (v / 2 ^ 4, n + 4) else (v, n)
  let (v, n) := if v > 3 then (v / 2 ^ 2, n + 2) else (v, n)
  if v > 1 then n + 1 else n

/-- int_digits.hpp:251-278 `digits_counter<2,4>` -/
def count2_4 (v : Nat) : Nat :=
  let n := 1
  let (v, n) := if v > 0xffff then (v / 2 ^ 16, n + 16) else (v, n)
  let (v, n) := if v > 0xff then (v / 2 ^ 8, n + 8) else (v, n)
  let (v, n) := if v > 0xf then (v / 2 ^ 4, n + 4) else (v, n)
  let (v, n) := if v > 3 then (v / 2 ^ 2, n + 2) else (v, n)
  if v > 1 then n + 1 else n

/-- int_digits.hpp:280-312 `digits_counter<2,8>` -/
def count2_8 (v : Nat) : Nat :=
  let n := 1
  let (v, n) := if v > 0xffffffff then (v / 2 ^ 32, n + 32) else (v, n)
  let (v, n) := if v > 0xffff then (v / 2 ^ 16, n + 16) else (v, n)
  let (v, n) := if v > 0xff then (v / 2 ^ 8, n + 8) else (v, n)
  let (v, n) := if v > 0xf then (v / 2 ^ 4, n + 4) else (v, n)
  let (v, n) := if v > 3 then (v / 2 ^ 2, n + 2) else (v, n)
  if v > 1 then n + 1 else n

/-- int_digits.hpp:314-327 `digits_counter<8,1>` -/
def count8_1 (v : Nat) : Nat := if v > 0o77 then 3 else if v > 0o7 then 2 else 1

/-- int_digits.hpp:329-347 `digits_counter<8,2>` -/
def count8_2 (v : Nat) : Nat :=
  let n := 1
  let (v, n) := if v > 0o7777 then (v / 2 ^ 12, n + 4) else (v, n)
  let (v, n) := if v > 0o77 then (v / 2 ^ 6, n + 2) else (v, n)
  if v > 0o7 then n + 1 else n

/-- int_digits.hpp:349-371 `digits_counter<8,4>` -/
def count8_4 (v : Nat) : Nat :=
  let n := 1
  let (v, n) := if v > 0o77777777 then (v / 2 ^ 24, n + 8) else (v, n)
  let (v, n) := if v > 0o7777 then (v / 2 ^ 12, n + 4) else (v, n)
  let (v, n) := if v > 0o77 then (v / 2 ^ 6, n + 2) else (v, n)
  if v > 0o7 then n + 1 else n

/-- int_digits.hpp:373-399 `digits_counter<8,8>` -/
def count8_8 (v : Nat) : Nat :=
  let n := 1
  let (v, n) := if v > 0o7777777777777777 then (v / 2 ^ 48, n + 16) else (v, n)
  let (v, n) := if v > 0o77777777 then (v / 2 ^ 24, n + 8) else (v, n)
  let (v, n) := if v > 0o7777 then (v / 2 ^ 12, n + 4) else (v, n)
  let (v, n) := if v > 0o77 then (v / 2 ^ 6, n + 2) else (v, n)
  if v > 0o7 then n + 1 else n

/-- int_digits.hpp:401-408 `digits_counter<16,1>` -/
def count16_1 (v : Nat) : Nat := if v < 0x10 then 1 else 2

/-- int_digits.hpp:410-421 `digits_counter<16,2>` -/
def count16_2 (v : Nat) : Nat :=
  if v < 0x100 then (if v < 0x10 then 1 else 2) else if v < 0x1000 then 3 else 4

/-- int_digits.hpp:423-440 `digits_counter<16,4>` -/
def count16_4 (v : Nat) : Nat :=
  if v < 0x10000 then
    if v < 0x100 then (if v < 0x10 then 1 else 2) else if v < 0x1000 then 3 else 4
  else if v < 0x1000000 then (if v < 0x100000 then 5 else 6)
  else if v < 0x10000000 then 7 else 8

/-- int_digits.hpp:442-470 `digits_counter<16,8>` -/
def count16_8 (v : Nat) : Nat :=
  if v < 0x100000000 then
    if v < 0x10000 then
      if v < 0x100 then (if v < 0x10 then 1 else 2) else if v < 0x1000 then 3 else 4
    else if v < 0x1000000 then (if v < 0x100000 then 5 else 6)
    else if v < 0x10000000 then 7 else 8
  else if v < 0x1000000000000 then
    if v < 0x10000000000 then (if v < 0x1000000000 then 9 else 10)
    else if v < 0x100000000000 then 11 else 12
  else if v < 0x100000000000000 then (if v < 0x10000000000000 then 13 else 14)
  else if v < 0x1000000000000000 then 15 else 16

/-- int_digits.hpp:474-491 `digits_counter<10,1>` -/
def count10_1 (v : Nat) : Nat := if v ≤ 99 then (if v ≤ 9 then 1 else 2) else 3

/-- int_digits.hpp:493-513 `digits_counter<10,2>` -/
def count10_2 (v : Nat) : Nat :=
  if v ≤ 99 then (if v ≤ 9 then 1 else 2) else if v ≤ 9999 then (if v ≤ 999 then 3 else 4) else 5

/-- int_digits.hpp:515-540 `digits_counter<10,4>` -/
def count10_4 (v : Nat) : Nat :=
  if v ≤ 9999 then
    if v ≤ 99 then (if v ≤ 9 then 1 else 2) else if v ≤ 999 then 3 else 4
  else if v ≤ 99999999 then
    if v ≤ 999999 then (if v ≤ 99999 then 5 else 6) else if v ≤ 9999999 then 7 else 8
  else if v ≤ 999999999 then 9 else 10

/-- int_digits.hpp:542-584 `digits_counter<10,8>` -/
def count10_8 (v : Nat) : Nat :=
  if v ≤ 99999999 then
    if v ≤ 9999 then
      if v ≤ 99 then (if v ≤ 9 then 1 else 2) else if v ≤ 999 then 3 else 4
    else if v ≤ 999999 then (if v ≤ 99999 then 5 else 6)
    else if v ≤ 9999999 then 7 else 8
  else if v ≤ 9999999999999999 then
    if v ≤ 999999999999 then
      if v ≤ 9999999999 then (if v ≤ 999999999 then 9 else 10) else if v ≤ 99999999999 then 11 else 12
    else if v ≤ 99999999999999 then (if v ≤ 9999999999999 then 13 else 14)
    else if v ≤ 999999999999999 then 15 else 16
  else if v ≤ 999999999999999999 then (if v ≤ 99999999999999999 then 17 else 18)
  else if v ≤ 9999999999999999999 then 19 else 20

/-- standard_lib_functions.hpp 46–180: `countl_zero_l`/`countl_zero_ll` of a non-zero value of `bits` bits: the compiler's intrinsic. -/
def countlZero (bits v : Nat) : Nat := bits - 1 - Nat.log2 v

/-- int_digits.hpp:137-156 `digits_counter<2,…>` with STRF_HAS_COUNTL_ZERO; `bits` is the size of the parameter's
type (unsigned long or unsigned long long) -/
def count2Clz (bits v : Nat) : Nat := bits - countlZero bits (v ||| 1)
/-- int_digits.hpp:157-177 `digits_counter<8,…>` with STRF_HAS_COUNTL_ZERO -/
def count8Clz (bits v : Nat) : Nat := (bits + 2 - countlZero bits (v ||| 1)) / 3
/-- int_digits.hpp:178-198 `digits_counter<16,…>` with STRF_HAS_COUNTL_ZERO -/
def count16Clz (bits v : Nat) : Nat := (bits + 3 - countlZero bits (v ||| 1)) / 2 ^ 2

/-- int_digits.hpp:584-590 `count_digits<Base>(value)` for an unsigned type of `bytes` bytes (without
STRF_HAS_COUNTL_ZERO). -/
def countDigits (base bytes v : Nat) : Nat :=
  match base, bytes with
  | 2, 1 => count2_1 v | 2, 2 => count2_2 v | 2, 4 => count2_4 v | 2, _ => count2_8 v
  | 8, 1 => count8_1 v | 8, 2 => count8_2 v | 8, 4 => count8_4 v | 8, _ => count8_8 v
  | 16, 1 => count16_1 v | 16, 2 => count16_2 v | 16, 4 => count16_4 v | 16, _ => count16_8 v
  | _, 1 => count10_1 v | _, 2 => count10_2 v | _, 4 => count10_4 v | _, _ => count10_8 v

/-- int_digits.hpp:52-74 `max_num_digits<IntT, Base>()`: the size of the buffers for digits; `bytes` is
`sizeof(IntT)` -/
def maxNumDigits (base bytes : Nat) : Nat :=
  match base with
  | 2 => bytes * 8
  | 8 => (bytes * 8 + 2) / 3
  | 16 => bytes * 2
  | _ => (240824 * bytes + 99999) / 100000

/-! ## writing backwards

The list is what has been stored so far, from `it` to the end of the field: a store `*--it = c` is `c :: acc`. -/

/-- int_digits.hpp:592-607 `chars_00_to_99()` -/
def chars00to99 : List Nat :=
  ("00010203040506070809" ++ "10111213141516171819" ++ "20212223242526272829" ++ "30313233343536373839" ++
   "40414243444546474849" ++ "50515253545556575859" ++ "60616263646566676869" ++ "70717273747576777879" ++
   "80818283848586878889" ++ "90919293949596979899").toList.map Char.toNat

/-- int_digits.hpp:617-641 `intdigits_backwards_writer<10>::write_txtdigits_backwards` -/
def back10 (v : Nat) (acc : List Nat) : List Nat :=
  if _h : v > 99 then
    let index := v % 100 * 2
    back10 (v / 100) (chars00to99.getD index 0 :: chars00to99.getD (index + 1) 0 :: acc)
  else if v < 10 then (48 + v) :: acc
  else
    let index := v * 2
    chars00to99.getD index 0 :: chars00to99.getD (index + 1) 0 :: acc
termination_by v
decreasing_by omega

/-- int_digits.hpp:771, 798: `offset_digit_a` -/
def offsetDigitA (lc : Lettercase) : Nat := (65 ||| (if lc = .lower then 32 else 0)) - 10

/-- int_digits.hpp:774-776, 780-782: the character of a hexadecimal digit -/
def hexChar (lc : Lettercase) (d : Nat) : Nat := if d < 10 then 48 + d else offsetDigitA lc + d

/-- int_digits.hpp:762-784 `intdigits_backwards_writer<16>::write_txtdigits_backwards` -/
def back16 (lc : Lettercase) (v : Nat) (acc : List Nat) : List Nat :=
  if _h : v > 0xF then back16 lc (v / 16) (hexChar lc (v % 16) :: acc)
  else hexChar lc (v % 16) :: acc
termination_by v
decreasing_by omega

/-- int_digits.hpp:835-849 `intdigits_backwards_writer<8>::write_txtdigits_backwards` -/
def back8 (v : Nat) (acc : List Nat) : List Nat :=
  if _h : v > 7 then back8 (v / 8) ((48 + v % 8) :: acc)
  else (48 + v) :: acc
termination_by v
decreasing_by omega

/-- int_digits.hpp:910-917 `write_int_txtdigits_backwards<Base>` for the bases that have a backwards writer -/
def back (base : Nat) (lc : Lettercase) (v : Nat) : List Nat :=
  match base with
  | 8 => back8 v []
  | 16 => back16 lc v []
  | _ => back10 v []

/-! ### with single-unit separators -/

/-- int_digits.hpp:743-753: the end of `write_txtdigits_backwards_little_sep` for base 10 -/
def tail10 (v : Nat) (acc : List Nat) : List Nat :=
  if _h : v > 9 then
    let index := v % 100 * 2
    tail10 (v / 100) (chars00to99.getD index 0 :: chars00to99.getD (index + 1) 0 :: acc)
  else if v ≠ 0 then (48 + v) :: acc
  else acc
termination_by v
decreasing_by omega

/-- the next group: `if (! git.is_last()) git.advance();` (e.g. int_digits.hpp:710-712) -/
def nextGit (git : Nat) : Nat := if isLast git then git else advance git

/-- int_digits.hpp:688-741: the loop of `write_txtdigits_backwards_little_sep` for base 10. `before` is
`digits_before_sep`. -/
def little10 (sep v git before : Nat) (acc : List Nat) : List Nat :=
  if _h : v < 10 then (48 + v) :: acc
  else
    let index := v % 100 * 2
    let v := v / 100
    if before ≥ 2 then
      let acc := chars00to99.getD index 0 :: chars00to99.getD (index + 1) 0 :: acc
      if v = 0 then acc
      else if before ≠ 2 then little10 sep v git (before - 2) acc
      else
        let acc := sep :: acc
        if isFinal git then tail10 v acc
        else
          let git := nextGit git
          little10 sep v git (current git) acc
    else
      let acc := chars00to99.getD index 0 :: sep :: chars00to99.getD (index + 1) 0 :: acc
      if v = 0 then acc
      else if isFinal git then tail10 v acc
      else
        let git := nextGit git
        let before := current git - 1
        if before = 0 then
          let acc := sep :: acc
          if isFinal git then tail10 v acc
          else
            let git := nextGit git
            little10 sep v git (current git) acc
        else little10 sep v git before acc
termination_by v
decreasing_by all_goals omega

/-- int_digits.hpp:820-826: the last loop of `write_txtdigits_backwards_little_sep` for base 16 (a do-while) -/
def tail16 (lc : Lettercase) (v : Nat) (acc : List Nat) : List Nat :=
  let acc := hexChar lc (v % 16) :: acc
  if _h : v / 16 ≠ 0 then tail16 lc (v / 16) acc else acc
termination_by v
decreasing_by omega

/-- int_digits.hpp:800-818: the first loop of `write_txtdigits_backwards_little_sep` for base 16 (a do-while) -/
def little16 (lc : Lettercase) (sep v git before : Nat) (acc : List Nat) : List Nat :=
  let acc := hexChar lc (v % 16) :: acc
  if before ≠ 1 then
    if _h : v / 16 > 0xF then little16 lc sep (v / 16) git (before - 1) acc else tail16 lc (v / 16) acc
  else
    let acc := sep :: acc
    if isFinal git then tail16 lc (v / 16) acc
    else
      let git := nextGit git
      if _h : v / 16 > 0xF then little16 lc sep (v / 16) git (current git) acc else tail16 lc (v / 16) acc
termination_by v
decreasing_by all_goals omega

/-- int_digits.hpp:884-887: the last loop of `write_txtdigits_backwards_little_sep` for base 8 (a do-while) -/
def tail8 (v : Nat) (acc : List Nat) : List Nat :=
  let acc := (48 + v % 8) :: acc
  if _h : v / 8 ≠ 0 then tail8 (v / 8) acc else acc
termination_by v
decreasing_by omega

/-- int_digits.hpp:863-882: the loop of `write_txtdigits_backwards_little_sep` for base 8 -/
def little8 (sep v git before : Nat) (acc : List Nat) : List Nat :=
  let acc := (48 + v % 8) :: acc
  if _h : v / 8 = 0 then acc
  else if before ≠ 1 then little8 sep (v / 8) git (before - 1) acc
  else
    let acc := sep :: acc
    if isFinal git then tail8 (v / 8) acc
    else
      let git := nextGit git
      little8 sep (v / 8) git (current git) acc
termination_by v
decreasing_by all_goals omega

/-- int_digits.hpp:642-754, 786-827, 850-888 `write_txtdigits_backwards_little_sep` -/
def backLittle (base : Nat) (lc : Lettercase) (sep v w : Nat) : List Nat :=
  match base with
  | 8 => little8 sep v w (current w) []
  | 16 => little16 lc sep v w (current w) []
  | _ => little10 sep v w (current w) []

/-! ## writing to a destination -/

variable {σ : Type}

/-- destination.hpp 76–130: A field of `n` units at `buffer_ptr()` is filled backwards with `xs`, and the destination advanced past the
field: undefined if `xs` does not fill it exactly (a store before the field, or an unwritten unit), or if the field
does not fit. -/
def pokeField (D : Dest Nat σ) (s : σ) (n : Nat) (xs : List Nat) : Option σ :=
  if xs.length = n then D.poke s xs else none

/-- int_digits.hpp:978-991 `intdigits_writer<Base>::write` (Base 8, 10, 16) -/
def writeBack (D : Dest Nat σ) (base : Nat) (lc : Lettercase) (v digcount : Nat) (s : σ) : Option σ :=
  pokeField D (Dest.ensure D s digcount) digcount (back base lc v)

/-- int_digits.hpp:993-1010 `intdigits_writer<Base>::write_little_sep` -/
def writeLittle (D : Dest Nat σ) (base : Nat) (lc : Lettercase) (sep v w digcount sepcount : Nat) (s : σ) :
    Option σ :=
  pokeField D (Dest.ensure D s (digcount + sepcount)) (digcount + sepcount) (backLittle base lc sep v w)

/-- int_digits.hpp:1043-1052, 1059-1067: one group with the separator before it: flush if there is not enough room,
store the encoded separator and copy `n` digits (`none` if there are not so many). -/
def bigGroup (D : Dest Nat σ) (sep : List Nat) (n : Nat) (s : σ) (digits : List Nat) : Option (σ × List Nat) :=
  if n ≤ digits.length then
    (D.poke (Dest.ensure D s (sep.length + n)) (sep ++ digits.take n)).map fun s' => (s', digits.drop n)
  else none

/-- int_digits.hpp:1042-1053: the loop over the middle groups (a do-while, entered with `m ≥ 1`) -/
def bigMiddle (D : Dest Nat σ) (sep : List Nat) (n : Nat) : Nat → σ → List Nat → Option (σ × List Nat)
  | 0, s, ds => some (s, ds)
  | m + 1, s, ds => (bigGroup D sep n s ds).bind fun r => bigMiddle D sep n m r.1 r.2

/-- int_digits.hpp:1056-1069: the loop over the low groups -/
def bigLow (D : Dest Nat σ) (sep : List Nat) (low : Nat) (s : σ) (ds : List Nat) : Option (σ × List Nat) :=
  if _h : low = 0 then some (s, ds)
  else (bigGroup D sep (highestGroup low) s ds).bind fun r => bigLow D sep (popHigh low) r.1 r.2
termination_by low
decreasing_by simp [popHigh]; omega

/-- int_digits.hpp:1012-1072 `intdigits_writer<Base>::write_big_sep` (Base 8, 10, 16). `sep` is the encoded separator
(`sep_size` units). -/
def writeBig (D : Dest Nat σ) (base : Nat) (lc : Lettercase) (sep : List Nat) (v w digcount : Nat) (s : σ) :
    Option σ :=
  let digits := back base lc v
  match distribute w digcount with
  | none => none
  | some dist =>
    let s := Dest.ensure D s dist.highest
    if dist.highest ≤ digits.length then
      match D.poke s (digits.take dist.highest) with
      | none => none
      | some s =>
        let ds := digits.drop dist.highest
        if dist.middle ≠ 0 then
          match bigMiddle D sep (highestGroup dist.low) dist.middle s ds with
          | none => none
          | some (s, ds) => (bigLow D sep (popHigh dist.low) s ds).map (·.1)
        else (bigLow D sep dist.low s ds).map (·.1)
    else none

/-! ### base 2, written forwards -/

/-- int_digits.hpp:1104, 1131: the digit at `mask` -/
def maskChar (v mask : Nat) : Nat := 48 + (if v &&& mask ≠ 0 then 1 else 0)

/-- int_digits.hpp:1098-1108: the loop of `intdigits_writer<2>::write` (a do-while). Each digit is stored after
checking for space: `strf::put`. -/
def binLoop (D : Dest Nat σ) (v mask : Nat) (s : σ) : Option σ :=
  match Dest.put D s (maskChar v mask) with
  | none => none
  | some s => if _h : mask / 2 ≠ 0 then binLoop D v (mask / 2) s else some s
termination_by mask
decreasing_by omega

/-- int_digits.hpp:1080-1111 `intdigits_writer<2>::write` -/
def writeBin (D : Dest Nat σ) (v digcount : Nat) (s : σ) : Option σ :=
  if v ≤ 1 then Dest.put D s (48 + v)
  else binLoop D v (2 ^ (digcount - 1)) s

/-- int_digits.hpp:1131-1134, 1202-1205: the highest group is stored without looking at the space left -/
def binUnchecked (D : Dest Nat σ) (v : Nat) : Nat → Nat → σ → Option (σ × Nat)
  | 0, mask, s => some (s, mask)
  | n + 1, mask, s => (D.poke s [maskChar v mask]).bind fun s => binUnchecked D v n (mask / 2) s

/-- int_digits.hpp:1145-1154, 1166-1175: the digits of a group, with a check before each -/
def binDigits (D : Dest Nat σ) (v : Nat) : Nat → Nat → σ → Option (σ × Nat)
  | 0, mask, s => some (s, mask)
  | n + 1, mask, s => (Dest.put D s (maskChar v mask)).bind fun s => binDigits D v n (mask / 2) s

/-- int_digits.hpp:1137-1154, 1158-1175 and 1209-1225, 1230-1245: separator (flush if it does not fit) and digits of
one group -/
def binGroup (D : Dest Nat σ) (v : Nat) (sep : List Nat) (n mask : Nat) (s : σ) : Option (σ × Nat) :=
  (D.poke (Dest.ensure D s sep.length) sep).bind fun s => binDigits D v n mask s

/-- int_digits.hpp:1137-1155, 1208-1226: the loop over the middle groups -/
def binMiddle (D : Dest Nat σ) (v : Nat) (sep : List Nat) (n : Nat) : Nat → Nat → σ → Option (σ × Nat)
  | 0, mask, s => some (s, mask)
  | m + 1, mask, s => (binGroup D v sep n mask s).bind fun r => binMiddle D v sep n m r.2 r.1

/-- int_digits.hpp:1158-1177, 1228-1247: the loop over the low groups -/
def binLow (D : Dest Nat σ) (v : Nat) (sep : List Nat) (low mask : Nat) (s : σ) : Option (σ × Nat) :=
  if _h : low = 0 then some (s, mask)
  else (binGroup D v sep (highestGroup low) mask s).bind fun r => binLow D v sep (popHigh low) r.2 r.1
termination_by low
decreasing_by simp [popHigh]; omega

/-- int_digits.hpp:1131-1179, 1202-1249: from the highest group on -/
def binGroups (D : Dest Nat σ) (v : Nat) (sep : List Nat) (dist : Dist) (mask : Nat) (s : σ) : Option σ :=
  match binUnchecked D v dist.highest mask s with
  | none => none
  | some (s, mask) =>
    if dist.middle ≠ 0 then
      match binMiddle D v sep (highestGroup dist.low) dist.middle mask s with
      | none => none
      | some (s, mask) => (binLow D v sep (popHigh dist.low) mask s).map (·.1)
    else (binLow D v sep dist.low mask s).map (·.1)

/-- int_digits.hpp:1113-1180 `intdigits_writer<2>::write_little_sep`: nothing is ensured before the highest group -/
def writeBinLittle (D : Dest Nat σ) (sep : Nat) (v w digcount : Nat) (s : σ) : Option σ :=
  match distribute w digcount with
  | none => none
  | some dist => binGroups D v [sep] dist (2 ^ (digcount - 1)) s

/-- int_digits.hpp:1183-1250 `intdigits_writer<2>::write_big_sep` -/
def writeBinBig (D : Dest Nat σ) (sep : List Nat) (v w digcount : Nat) (s : σ) : Option σ :=
  match distribute w digcount with
  | none => none
  | some dist => binGroups D v sep dist (2 ^ (digcount - 1)) (Dest.ensure D s dist.highest)

/-! ### write_int -/

/-- int_digits.hpp:1253-1262 `write_int<Base>` -/
def writeInt (D : Dest Nat σ) (base : Nat) (lc : Lettercase) (v digcount : Nat) (s : σ) : Option σ :=
  if base = 2 then writeBin D v digcount s else writeBack D base lc v digcount s

/-- int_digits.hpp:1264-1277 `write_int_little_sep<Base>` -/
def writeIntLittle (D : Dest Nat σ) (base : Nat) (lc : Lettercase) (sep v w digcount sepcount : Nat) (s : σ) :
    Option σ :=
  if base = 2 then writeBinLittle D sep v w digcount s else writeLittle D base lc sep v w digcount sepcount s

/-- int_digits.hpp:1279-1293 `write_int_big_sep<Base>` -/
def writeIntBig (D : Dest Nat σ) (base : Nat) (lc : Lettercase) (sep : List Nat) (v w digcount : Nat) (s : σ) :
    Option σ :=
  if base = 2 then writeBinBig D sep v w digcount s else writeBig D base lc sep v w digcount s

end Strf.IntDigits

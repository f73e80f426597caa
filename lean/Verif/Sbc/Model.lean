import Verif.Sbc.Tables
import Verif.Charset.Model
import Verif.Utf.ModelUnsafe
/-!
# Model of the transcoders and of the charset classes of single_byte_charsets.hpp (lines 84–316, 2442–3147)

As in the UTF model, a pointer into the source is the list of units from there to the end, and the destination range
is the room in it. Source units of single-byte charsets are bytes; those of UTF-32 are `char32_t` values (for `wchar_t`
sources the code compares `*src` in the source type: not modelled).
-/
namespace Strf.Sbc
open Strf.Utf (Reason SR)
open Strf.Charset (Event Res)
open Strf.Dest (Dest)

/-- charset.hpp transcode_flags. -/
structure Flags where
  lax : Bool
  stop : Bool
  stopUnsup : Bool
deriving DecidableEq, Repr

/-- single_byte_charsets.hpp 2380–2700: What the body of a transcoding loop does before the check of the destination: return, or go on to store `unit`;
and the notifications made. -/
inductive Act
  | ret (why : Reason) (ev : List Event)
  | store (unit : Nat) (ev : List Event)
deriving DecidableEq, Repr

/-- single_byte_charsets.hpp 2380–2700: The loop `for (; src < src_end; ++src, ++dst_it) { …; if (dst_it == dst_end) return …; *dst_it = … }`
common to 2524–2542, 2663–2695, 2710–2727 and 2816–2834. -/
def loop (act : Nat → List Nat → Act) (room : Nat) : List Nat → Option Res
  | [] => some ⟨[], [], .completed, []⟩
  | ch :: t =>
    match act ch t with
    | .ret why ev => some ⟨ch :: t, [], why, ev⟩
    | .store u ev =>
      if room = 0 then some ⟨ch :: t, [], .insufficient, ev⟩
      else (loop act (room - 1) t).map fun r => ⟨r.rest, u :: r.out, r.why, ev ++ r.events⟩

/-- single_byte_charsets.hpp 2525–2534: body of single_byte_charset_to_utf32::transcode. -/
def actToU32 (I : Impl) (f : Flags) (ch : Nat) (t : List Nat) : Act :=
  if I.decode ch = 0xFFFD then
    if f.stop then .ret .invalid [.invalid (t.length + 1) 1] else .store 0xFFFD [.invalid (t.length + 1) 1]
  else .store (I.decode ch) []

/-- single_byte_charsets.hpp 2513–2543 single_byte_charset_to_utf32::transcode. -/
def toU32 (I : Impl) (f : Flags) (room : Nat) (src : List Nat) : Option Res := loop (actToU32 I f) room src

/-- single_byte_charsets.hpp 2545–2566 single_byte_charset_to_utf32::unsafe_transcode (the check comes before `decode`, which has no effect). -/
def unsafeToU32 (I : Impl) (room : Nat) (src : List Nat) : Option Res :=
  loop (fun ch _ => .store (I.decode ch) []) room src

/-- single_byte_charsets.hpp 2666–2669 is_invalid. -/
def isInvalid (f : Flags) (ch : Nat) : Bool :=
  decide (ch ≥ 0x110000) || (!f.lax && decide (0xD800 ≤ ch) && decide (ch ≤ 0xFFFF))

/-- single_byte_charsets.hpp 2664–2690: body of utf32_to_single_byte_charset::transcode. -/
def actFromU32 (I : Impl) (f : Flags) (ch : Nat) (t : List Nat) : Act :=
  if I.encode ch ≥ 0x100 then
    if !isInvalid f ch then
      if f.stopUnsup then .ret .unsupported [.unsupported ch] else .store 0x3F [.unsupported ch]
    else
      if f.stop then .ret .invalid [.invalid (t.length + 1) 1] else .store 0x3F [.invalid (t.length + 1) 1]
  else .store (I.encode ch % 0x100) []

/-- single_byte_charsets.hpp 2651–2696 utf32_to_single_byte_charset::transcode. -/
def fromU32 (I : Impl) (f : Flags) (room : Nat) (src : List Nat) : Option Res := loop (actFromU32 I f) room src

/-- single_byte_charsets.hpp 2711–2722: body of utf32_to_single_byte_charset::unsafe_transcode. -/
def actUnsafeFromU32 (I : Impl) (f : Flags) (ch : Nat) (_ : List Nat) : Act :=
  if I.encode ch ≥ 0x100 then
    if f.stopUnsup then .ret .unsupported [.unsupported ch] else .store 0x3F [.unsupported ch]
  else .store (I.encode ch % 0x100) []

/-- single_byte_charsets.hpp 2698–2728 utf32_to_single_byte_charset::unsafe_transcode. -/
def unsafeFromU32 (I : Impl) (f : Flags) (room : Nat) (src : List Nat) : Option Res :=
  loop (actUnsafeFromU32 I f) room src

/-- single_byte_charsets.hpp 2817–2827: body of single_byte_charset_to_itself::transcode. -/
def actSanitize (I : Impl) (f : Flags) (ch : Nat) (t : List Nat) : Act :=
  if !I.isValid ch then
    if f.stop then .ret .invalid [.invalid (t.length + 1) 1] else .store 0x3F [.invalid (t.length + 1) 1]
  else .store ch []

/-- single_byte_charsets.hpp 2804–2835 single_byte_charset_to_itself::transcode. -/
def sanitize (I : Impl) (f : Flags) (room : Nat) (src : List Nat) : Option Res := loop (actSanitize I f) room src

/-- single_byte_charsets.hpp 2766–2775 single_byte_charset_to_itself::unsafe_transcode. -/
def unsafeSanitize (room : Nat) (src : List Nat) : Option Res := (Utf.bypassUnsafe room src).map Charset.ofTR

/-! ## Sizes -/

/-- single_byte_charsets.hpp: E.g. 2464–2468: the result when no unit can stop the transcoding. -/
def plainSize (limit : Nat) (src : List Nat) : SR :=
  if src.length ≤ limit then ⟨src.length, [], .completed⟩ else ⟨limit, src.drop limit, .insufficient⟩

/-- single_byte_charsets.hpp: The loops `for (it = src; it < src_end; ++it)` of 86–316: `why` says whether a unit stops the search; `pos` is
`it - src`. -/
def scanAll (why : Nat → Option Reason) (pos : Nat) : List Nat → SR
  | [] => ⟨pos, [], .completed⟩
  | ch :: t =>
    match why ch with
    | some w => ⟨pos, ch :: t, w⟩
    | none => scanAll why (pos + 1) t

/-- single_byte_charsets.hpp: The loops `for (it = src; ; ++it)` of 86–316, which end at the latest at `src_limit`. A read past the end is
`none`. -/
def scanLimit (why : Nat → Option Reason) (limit pos : Nat) : List Nat → Option SR
  | [] => none
  | ch :: t =>
    match why ch with
    | some w => some ⟨pos, ch :: t, w⟩
    | none => if pos = limit then some ⟨pos, ch :: t, .insufficient⟩ else scanLimit why limit (pos + 1) t

/-- single_byte_charsets.hpp: The common shape of the functions in 86–316. -/
def findFirst (why : Nat → Option Reason) (limit : Nat) (src : List Nat) : Option SR :=
  if src.length ≤ limit then some (scanAll why 0 src) else scanLimit why limit 0 src

/-- single_byte_charsets.hpp 86–128 find_invalid_sequence. -/
def findInvalid (I : Impl) (limit : Nat) (src : List Nat) : Option SR :=
  if I.checksInvalid then findFirst (fun ch => if !I.isValid ch then some .invalid else none) limit src
  else some (plainSize limit src)

/-- single_byte_charsets.hpp 2453–2469 and 2747–2763: transcode_size of single_byte_charset_to_utf32 and single_byte_charset_to_itself. -/
def toU32Size (I : Impl) (f : Flags) (limit : Nat) (src : List Nat) : Option SR :=
  if f.stop then findInvalid I limit src else some (plainSize limit src)

/-- single_byte_charsets.hpp 144, 160: the test of find_first_invalid_codepoint (131–179). -/
def whyInvalid (f : Flags) (ch : Nat) : Option Reason :=
  if ch ≥ 0x110000 ∨ (f.lax = false ∧ 0xD800 ≤ ch ∧ ch ≤ 0xFFFF) then some .invalid else none

/-- single_byte_charsets.hpp: The tests of find_first_unsupported_or_invalid_codepoint (181–236). -/
def whyBoth (I : Impl) (f : Flags) (ch : Nat) : Option Reason :=
  if ch ≥ 0x110000 ∨ (f.lax = false ∧ 0xD800 ≤ ch ∧ ch ≤ 0xFFFF) then some .invalid
  else if I.encode ch ≥ 0x100 then some .unsupported else none

/-- single_byte_charsets.hpp: The test of find_first_valid_but_unsupported_codepoint (238–290). -/
def whyUnsup (I : Impl) (f : Flags) (ch : Nat) : Option Reason :=
  if f.lax then (if ch ≤ 0x110000 ∧ I.encode ch ≥ 0x100 then some .unsupported else none)
  else if (ch ≤ 0xD800 ∨ (0xFFFF ≤ ch ∧ ch ≤ 0x10FFFF)) ∧ I.encode ch ≥ 0x100 then some .unsupported else none

/-- single_byte_charsets.hpp 2578–2606 utf32_to_single_byte_charset::transcode_size. -/
def fromU32Size (I : Impl) (f : Flags) (limit : Nat) (src : List Nat) : Option SR :=
  if f.stopUnsup ∧ f.stop then findFirst (whyBoth I f) limit src
  else if f.stop then findFirst (whyInvalid f) limit src
  else if f.stopUnsup then findFirst (whyUnsup I f) limit src
  else some (plainSize limit src)

/-- single_byte_charsets.hpp 2616–2630 utf32_to_single_byte_charset::unsafe_transcode_size, with find_first_unsupported_codepoint (293–316). -/
def unsafeFromU32Size (I : Impl) (f : Flags) (limit : Nat) (src : List Nat) : Option SR :=
  if !f.stopUnsup then some (plainSize limit src)
  else findFirst (fun ch => if I.encode ch ≥ 0x100 then some .unsupported else none) limit src

/-! ## The charset class -/

/-- single_byte_charsets.hpp 2933–2936 validate: the size, or `none` for −1. -/
def validate (I : Impl) (ch : Nat) : Option Nat := if I.encode ch < 0x100 then some 1 else none

/-- single_byte_charsets.hpp 3112–3121 encode_char. -/
def encodeChar (I : Impl) (ch : Nat) : Nat :=
  let ch2 := I.encode ch
  if ch2 < 0x100 then ch2 else 0x3F

/-- single_byte_charsets.hpp 3134–3145: the loop of encode_fill; it does not look at good(). The count is a `std::ptrdiff_t`; only
non-negative counts are modelled (with a negative one the code stores backwards: undefined behaviour). -/
def fillLoop {σ : Type} (D : Dest Nat σ) (c : Nat) : Nat → σ → Nat → Option σ
  | 0, _, _ => none
  | fuel + 1, s, count =>
    let available := D.space s
    if count ≤ available then D.poke s (List.replicate count c)
    else
      match D.poke s (List.replicate available c) with
      | none => none
      | some s1 => fillLoop D c fuel (D.recycle s1) (count - available)

/-- single_byte_charsets.hpp 3123–3146 encode_fill. -/
def encodeFill {σ : Type} (D : Dest Nat σ) (I : Impl) (s : σ) (count : Nat) (ch : Nat) : Option σ :=
  let ch2 := I.encode ch
  fillLoop D (if ch2 ≥ 0x100 then 0x3F else ch2) (count + 2) s count

/-- single_byte_charsets.hpp 2954–2978 count_codepoints and count_codepoints_fast: the count and the position. -/
def countCodepoints (src : List Nat) (max : Nat) : Nat × List Nat :=
  if max < src.length then (max, src.drop max) else (src.length, [])

/-- single_byte_charsets.hpp 2929–2932 write_replacement_char. -/
def writeReplacement {σ : Type} (D : Dest Nat σ) (s : σ) : Option σ := Dest.put D s 0x3F

end Strf.Sbc

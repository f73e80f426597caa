import Verif.Utf.Model
import Verif.Dest.Model
/-!
# Single characters: encode_char, encoded_char_size, validate, decode_unit, encode_fill, write_replacement_char

Code units are natural numbers (see Model.lean); `char32_t` values are natural numbers below 2^32.
-/
namespace Strf.Utf

/-- utf.hpp 2065–2066 (and 2035–2036): the two bytes of a character below U+0800. -/
def bytes2 (ch : Nat) : List Nat := [tr8 (0xC0 ||| ((ch &&& 0x7C0) >>> 6)), tr8 (0x80 ||| (ch &&& 0x3F))]
/-- utf.hpp 2070–2072 (and 2039–2041). -/
def bytes3 (ch : Nat) : List Nat :=
  [tr8 (0xE0 ||| ((ch &&& 0xF000) >>> 12)), tr8 (0x80 ||| ((ch &&& 0xFC0) >>> 6)), tr8 (0x80 ||| (ch &&& 0x3F))]
/-- utf.hpp 2076–2079 (and 2044–2047). -/
def bytes4 (ch : Nat) : List Nat :=
  [tr8 (0xF0 ||| ((ch &&& 0x1C0000) >>> 18)), tr8 (0x80 ||| ((ch &&& 0x3F000) >>> 12)),
   tr8 (0x80 ||| ((ch &&& 0xFC0) >>> 6)), tr8 (0x80 ||| (ch &&& 0x3F))]
/-- utf.hpp 2727–2729 (and 2746–2748): the surrogate pair. -/
def pair16 (ch : Nat) : List Nat :=
  [tr16 (0xD800 + ((ch - 0x10000) >>> 10)), tr16 (0xDC00 + ((ch - 0x10000) &&& 0x3FF))]

/-- static_charset<CharT, csid_utf8 | csid_utf16 | csid_utf32>::encode_char, utf.hpp 2058–2086, 2719–2736,
1237–1241: the units stored at `dst`; the returned pointer is just after them. -/
def encodeChar : Enc → Nat → List Nat
  | .utf8, ch =>
    if ch < 0x80 then [tr8 ch]
    else if ch < 0x800 then bytes2 ch
    else if ch < 0x10000 then bytes3 ch
    else if ch < 0x110000 then bytes4 ch
    else [0xEF, 0xBF, 0xBD]
  | .utf16, ch =>
    if ch < 0x10000 then [tr16 ch]
    else if ch < 0x110000 then pair16 ch
    else [0xFFFD]
  | .utf32, ch => [ch]

/-- encoded_char_size, utf.hpp 939–945, 1084–1087, 1233–1236. -/
def encodedCharSize : Enc → Nat → Nat
  | .utf8, ch => if ch < 0x80 then 1 else if ch < 0x800 then 2 else if ch < 0x10000 then 3 else if ch < 0x110000 then 4 else 3
  | .utf16, ch => 1 + (if 0x10000 ≤ ch ∧ ch < 0x110000 then 1 else 0)
  | .utf32, _ => 1

/-- validate, utf.hpp 930–938, 1077–1083, 1229–1232. -/
def validate : Enc → Nat → Int
  | .utf8, ch =>
    if ch < 0x80 then 1 else if ch < 0x800 then 2 else if isSurrogate ch then -1
    else if ch < 0x10000 then 3 else if ch < 0x110000 then 4 else -1
  | .utf16, ch => if isSurrogate ch then -1 else if ch < 0x10000 then 1 else if ch < 0x110000 then 2 else -1
  | .utf32, ch => if !isSurrogate ch && decide (ch < 0x110000) then 1 else -1

/-- decode_unit, utf.hpp 963–968, 1112–1115, 1284–1287. `signed`: the code unit type is a signed 8-bit `char`
(the comparison `ch < 0x80` is then made on the sign-extended value, and so is the cast to `char32_t`). -/
def decodeUnit (signed : Bool) : Enc → Nat → Nat
  | .utf8, ch =>
    if signed && decide (0x80 ≤ ch) then 0xFFFFFF00 + ch
    else if ch < 0x80 then ch else 0xFFFD
  | .utf16, ch => ch
  | .utf32, ch => ch

/-- replacement_char_size, utf.hpp 926–929, 1073–1076, and the utf32 one. -/
def replacementCharSize : Enc → Nat
  | .utf8 => 3 | .utf16 => 1 | .utf32 => 1

section fill
variable {σ : Type}

/-- write_replacement_char, utf.hpp 2308–2320, 2934–2942, 3056–3064. -/
def writeReplacement (D : Dest.Dest Nat σ) (s : σ) : Enc → Option σ
  | .utf8 => D.poke (Dest.ensure D s 3) [0xEF, 0xBF, 0xBD]
  | .utf16 => D.poke (Dest.ensure D s 1) [0xFFFD]
  | .utf32 => D.poke (Dest.ensure D s 1) [0xFFFD]

/-- repeat_sequence, utf.hpp 26–125 (the three overloads, for sequences of 2, 3 and 4 units). -/
def repeatSequence (D : Dest.Dest Nat σ) (seq : List Nat) : Nat → σ → Int → Option σ
  | 0, _, _ => none
  | fuel + 1, s, count =>
    let space := D.space s / seq.length
    let inner : Int := if space < count then space else count
    match D.poke s (List.replicate inner.toNat seq).flatten with
    | none => none
    | some s1 =>
      if count ≤ space then some s1
      else
        let s2 := Dest.flush D s1
        if !D.good s2 then some s2 else repeatSequence D seq fuel s2 (count - space)

/-- encode_fill, utf.hpp 2028–2056, 2739–2755, 3049–3054. -/
def encodeFill (D : Dest.Dest Nat σ) (s : σ) (count : Int) (ch : Nat) : Enc → Option σ
  | .utf8 =>
    if ch < 0x80 then Dest.writeFill D s count (tr8 ch)
    else if ch < 0x800 then repeatSequence D (bytes2 ch) (count.toNat + 2) s count
    else if ch < 0x10000 then repeatSequence D (bytes3 ch) (count.toNat + 2) s count
    else if ch < 0x110000 then repeatSequence D (bytes4 ch) (count.toNat + 2) s count
    else repeatSequence D [0xEF, 0xBF, 0xBD] (count.toNat + 2) s count
  | .utf16 =>
    if ch < 0x10000 then Dest.writeFill D s count (tr16 ch)
    else if ch < 0x110000 then repeatSequence D (pair16 ch) (count.toNat + 2) s count
    else Dest.writeFill D s count 0xFFFD
  | .utf32 => Dest.writeFill D s count ch

end fill
end Strf.Utf

import Verif.Locale.Spec
import Verif.Utf.Model
import Verif.Sbc.Model
import Verif.Sbc.Tables
import Verif.Numpunct.Model
/-!
# Model of include/strf/locale.hpp

The strings obtained from the C library or from Windows are parameters: `Conv` on POSIX systems, three wide strings on
Windows (without their terminating zero: reading the zero is reading the end of the list). `none` is undefined
behaviour. `setlocale`, `localeconv`, `nl_langinfo`, `_wsetlocale` and `GetLocaleInfoEx` are not modelled.
-/
namespace Strf.Locale
open Strf.Numpunct

/-- `*it`, zero at the end of the string -/
def cur : List Nat → Nat
  | [] => 0
  | c :: _ => c

/-- int_digits.hpp 18–22 is_digit. -/
def isDigit (c : Nat) : Bool := 48 ≤ c && c ≤ 57

/-- int_digits.hpp 24–28 not_digit. -/
def notDigit (c : Nat) : Bool := c < 48 || 57 < c

/-- locale.hpp 51–83 parse_win_grouping: the loop from line 58, entered with `creator` and `it`. -/
def winLoop (creator : Creator) (it : List Nat) : Nat :=
  if notDigit (cur it) then emptyWord
  else
    let grp := cur it - 48
    let it1 := it.drop 1
    let grp2 := if isDigit (cur it1) then grp * 10 + (cur it1 - 48) else grp
    let it2 := if isDigit (cur it1) then it1.drop 1 else it1
    if grp2 = 0 then (if cur it2 ≠ 0 then emptyWord else creator.finish)
    else if cur it2 = 0 then (creator.push grp2).finishNoMoreSep
    else if cur it2 ≠ 59 then emptyWord
    else winLoop (creator.push grp2) (it2.drop 1)
termination_by it.length
decreasing_by
  rename_i h1 h2 h3 h4
  cases it with
  | nil => simp [cur, notDigit] at h1
  | cons a t =>
    simp only [List.length_drop, List.length_cons]
    split <;> simp <;> omega

/-- locale.hpp 51–83 parse_win_grouping. -/
def parseWinGrouping (str : List Nat) : Nat := if str = [] then emptyWord else winLoop Creator.init str

/-- locale.hpp 86–101 decode_first_char_from_utf16 (utf.hpp: not_surrogate, is_high_surrogate, is_low_surrogate). -/
def decodeFirst16 (src : List Nat) : Nat :=
  let ch0 := cur src
  if ch0 ≠ 0 then
    if !Utf.isSurrogate ch0 then ch0
    else if Utf.isHigh ch0 then
      let ch1 := cur (src.drop 1)
      if Utf.isLow ch1 then 0x10000 + (((ch0 &&& 0x3FF) <<< 10) ||| (ch1 &&& 0x3FF)) else 0xFFFD
    else 0xFFFD
  else 0xFFFD

/-- charset.hpp transcode_f<char, char32_t>, called with transcode_flags::none and no notifier: what is stored into a
destination range of the given size. -/
abbrev Decoder := Nat → List Nat → Option (List Nat)

/-- locale.hpp 106–111 decode_first_char: the range has room for one of the two elements of `buff32`. -/
def decodeFirst (decode : Decoder) (str : List Nat) : Option Nat :=
  (decode 1 str).map fun out => out.headD 0xFFFD

/-- The decoder of a single-byte charset (single_byte_charsets.hpp). -/
def sbcDecoder (I : Sbc.Impl) : Decoder := fun room src => (Sbc.toU32 I ⟨false, false, false⟩ room src).map (·.out)

/-- utf.hpp utf8_to_utf32::transcode. -/
def utf8Decoder : Decoder := fun room src => (Utf.transcode8to32 ⟨false, false⟩ room src).map (·.out)

/-- locale.hpp 114–135 get_decoder. -/
def getDecoder (name : String) : Option Decoder :=
  if name = "UTF-8" then some utf8Decoder
  else if name = "ISO-8859-1" then some (sbcDecoder Sbc.iso_8859_1)
  else if name = "ISO-8859-3" then some (sbcDecoder Sbc.iso_8859_3)
  else if name = "ISO-8859-15" then some (sbcDecoder Sbc.iso_8859_15)
  else none

/-- locale.hpp 148–160 make_numpunct: the decimal point. -/
def makePoint (encoding : String) (s : List Nat) : Option Nat :=
  match s with
  | [] => some 0xFFFD
  | b :: _ =>
    if b &&& 0x80 = 0 then some b
    else match getDecoder encoding with
      | some d => decodeFirst d s
      | none => some 0xFFFD

/-- locale.hpp 161–181 make_numpunct: the grouping and the thousands separator. `decoder_func_searched` only saves a
second search with the same result. -/
def makeSep (encoding : String) (s : List Nat) (f : Facet) : Option Facet :=
  match s with
  | [] => some (f.setGrouping emptyWord)
  | b :: _ =>
    if b &&& 0x80 = 0 then some (f.setSep b)
    else match getDecoder encoding with
      | none => some (f.setSep 0xA0)
      | some d => (decodeFirst d s).map fun ch => if ch = 0xFFFD then f.setGrouping emptyWord else f.setSep ch

/-- locale.hpp 138–183 make_numpunct. -/
def makeNumpunct (encoding : String) (point sep : List Nat) (grouping : Nat) : Option Facet :=
  (makePoint encoding point).bind fun p =>
    let f := (Facet.default.setGrouping grouping).setPoint p
    if isEmpty grouping then some f else makeSep encoding sep f

/-- locale.hpp 190–222 locale_numpunct, POSIX. -/
def localeNumpunct (c : Conv) : Option Facet :=
  makeNumpunct c.codeset c.decimalPoint c.thousandsSep (ctorStr c.grouping)

/-- locale.hpp 190–222 locale_numpunct, Windows: the strings given by GetLocaleInfoEx. -/
def localeNumpunctWin (grouping decimal thousands : List Nat) : Facet :=
  let g := parseWinGrouping grouping
  let p := decodeFirst16 decimal
  let t := decodeFirst16 thousands
  let g' := if t = 0xFFFD then emptyWord else g
  ((Facet.default.setGrouping g').setPoint p).setSep t

end Strf.Locale

import Verif.WidthCalc.Tree
import Verif.Width.Model
/-!
# Model of the width calculators, include/strf/detail/facets/width_calculator.hpp

Widths are `width_t` values (1/65536 of a column), as in Width/Model.lean. A text is the list of its code units; a pointer
into it is the list of units from there to the end. Assertions (STRF_ASSERT) are not executed.
-/
namespace Strf.WidthCalc
open Strf.Width

/-- facets/width_calculator.hpp 405–530: What the width calculators use of a charset: `to_u32().transcode` without notifier and flags (what was stored, the
source position, and whether the stop reason is insufficient_output_space), the source position that
`to_u32().transcode_size` returns, `count_codepoints`, `count_codepoints_fast` and `decode_unit`
(docs/ref_charset.adoc). -/
structure Source where
  toU32 : Nat → List Nat → Option (List Nat × List Nat × Bool)
  toU32Pos : Nat → List Nat → Option (List Nat)
  count : Nat → List Nat → Option (Nat × List Nat)
  countFast : Nat → List Nat → Option (Nat × List Nat)
  decodeUnit : Nat → Nat

/-! ## fast_width, width_as_fast_u32len, width_as_u32len -/

/-- width_calculator.hpp 36–52 fast_width_t::str_width. The cast of `str_len`, a size_t, is `ofUInt`. -/
def fastStrWidth (limit : Int) (src : List Nat) : Int :=
  let nnLimit := if limit ≥ 0 then limit else 0
  if (src.length : Int) ≤ nnLimit / 65536 then ofUInt src.length else nnLimit

/-- width_calculator.hpp 54–68 fast_width_t::str_width_and_pos. -/
def fastStrWidthPos (limit : Int) (src : List Nat) : Int × List Nat :=
  if (src.length : Int) ≤ nnFloor limit then (ofUInt src.length, [])
  else (ofUInt (nnFloor limit), src.drop (nnFloor limit).toNat)

/-- width_calculator.hpp 84–96 width_as_fast_u32len_t::str_width and 130–142 width_as_u32len_t::str_width; `cnt` is the counting function;
the count is a ptrdiff_t. -/
def u32lenStrWidth (cnt : Nat → List Nat → Option (Nat × List Nat)) (limit : Int) (src : List Nat) : Option Int :=
  (cnt (nnCeil limit).toNat src).map fun r => satCastI r.1

/-- width_calculator.hpp 98–111 and 144–157 str_width_and_pos; the count, a ptrdiff_t, is converted by `ofInt`. -/
def u32lenStrWidthPos (cnt : Nat → List Nat → Option (Nat × List Nat)) (limit : Int) (src : List Nat) :
    Option (Int × List Nat) :=
  (cnt (nnFloor limit).toNat src).map fun r => (ofInt r.1, r.2)

/-! ## std_width_calc -/

/-- width_calculator.hpp 404–449 std_width_calc_t::char32_width, in columns. -/
def char32Width (ch : Nat) : Nat :=
  if ch ≤ 0x115F then (if ch < 0x1100 then 1 else 2)
  else if ch ≤ 0xFF60 then
    if ch ≤ 0xD7A3 then
      if ch ≤ 0x303E then
        if ch ≤ 0x232A then (if ch < 0x2329 then 1 else 2)
        else (if ch < 0x2E80 then 1 else 2)
      else if ch ≤ 0xA4CF then (if ch < 0x3040 then 1 else 2)
      else (if ch < 0xAC00 then 1 else 2)
    else if ch ≤ 0xFE19 then
      if ch ≤ 0xFAFF then (if ch < 0xF900 then 1 else 2)
      else (if ch < 0xFE10 then 1 else 2)
    else if ch ≤ 0xFE6F then (if ch < 0xFE30 then 1 else 2)
    else (if ch < 0xFF00 then 1 else 2)
  else if ch ≤ 0x3FFFD then
    if ch ≤ 0x1F9FF then
      if ch ≤ 0x1F64F then
        if ch ≤ 0xFFE6 then (if ch < 0xFFE0 then 1 else 2)
        else (if ch < 0x1F300 then 1 else 2)
      else (if ch < 0x1F900 then 1 else 2)
    else if ch ≤ 0x2FFFD then (if ch < 0x20000 then 1 else 2)
    else (if ch < 0x30000 then 1 else 2)
  else 1

/-- width_calculator.hpp 451–472 char_width: of the code point that the unit is decoded to (`decode_unit`; in UTF-32 the unit itself). -/
def stdCharWidth (S : Source) (unit : Nat) : Int := ofI16 (char32Width (S.decodeUnit unit))

/-! The states, 188–201. -/
/-- width_calculator.hpp 188 -/
def initial : Nat := 0
/-- width_calculator.hpp 189 -/
def afterPrepend : Nat := 1
/-- width_calculator.hpp 190 -/
def afterCore : Nat := 2
/-- width_calculator.hpp 191 -/
def afterRi : Nat := afterCore ||| 4
/-- width_calculator.hpp 192 -/
def afterXpic : Nat := afterCore ||| 8
/-- width_calculator.hpp 193 -/
def afterXpicZwj : Nat := afterCore ||| 16
/-- width_calculator.hpp 194 -/
def afterHangul : Nat := afterCore ||| 32
/-- width_calculator.hpp 195 -/
def afterHangulL : Nat := afterHangul ||| 64
/-- width_calculator.hpp 196 -/
def afterHangulV : Nat := afterHangul ||| 128
/-- width_calculator.hpp 197 -/
def afterHangulT : Nat := afterHangul ||| 256
/-- width_calculator.hpp 198 -/
def afterHangulLv : Nat := afterHangul ||| 512
/-- width_calculator.hpp 199 -/
def afterHangulLvt : Nat := afterHangul ||| 1024
/-- width_calculator.hpp 200 -/
def afterPoscore : Nat := 2048
/-- width_calculator.hpp 201 -/
def afterCr : Nat := 4096

/-- width_calculator.hpp 230–246: where the control goes for a code point, and its `ch_width` in columns. -/
def classify (ch : Nat) : Label × Nat :=
  if ch ≤ 0x7E then
    if 0x20 ≤ ch then (.other, 1)
    else if ch = 0x0D then (.cr, 1)
    else if ch = 0x0A then (.lf, 1)
    else (.control, 1)
  else gcbTree.eval ch 1

/-- width_calculator.hpp 264–272 at the label handle_spacing_mark: the new state, and whether the control goes to decrement_width. -/
def handleSpacingMark (state : Nat) : Nat × Bool :=
  if state &&& (afterPrepend ||| afterCore ||| afterPoscore) ≠ 0 then (afterPoscore, false) else (afterPoscore, true)

/-- facets/width_calculator.hpp: The pattern of 283–292, 294–303, …: if `state` is such that the code point goes on with the cluster, or is
after_prepend, the control goes to next_codepoint, else to decrement_width. -/
def enter (continues : Bool) (state inside alone : Nat) : Nat × Bool :=
  if continues then (inside, false) else if state ≠ afterPrepend then (alone, true) else (alone, false)

/-- width_calculator.hpp 205–210 and 250–389: the code at each label: the new state, and whether the control goes to decrement_width, i.e. a
cluster begins. -/
def handle (l : Label) (ch state : Nat) : Nat × Bool :=
  match l with
  | .other => if state = afterPrepend then (afterCore, false) else (afterCore, true)
  | .zwj => if state = afterXpic then (afterXpicZwj, false) else handleSpacingMark state
  | .extend | .extendAndControl => if state = afterXpic then (state, false) else handleSpacingMark state
  | .spacingMark => handleSpacingMark state
  | .prepend => if state = afterPrepend then (state, false) else (afterPrepend, true)
  | .regionalIndicator => enter (state = afterRi) state afterCore afterRi
  | .extendedPicto => enter (state = afterXpicZwj) state afterXpic afterXpic
  | .hangulL => enter (state = afterHangulL) state afterHangulL afterHangulL
  -- `~after_hangul & (after_hangul_l | after_hangul_v | after_hangul_lv)`
  | .hangulV => enter (state &&& (64 ||| 128 ||| 512) ≠ 0) state afterHangulV afterHangulV
  -- `~after_hangul & (after_hangul_v | after_hangul_lv | after_hangul_lvt | after_hangul_t)`
  | .hangulT => enter (state &&& (128 ||| 512 ||| 1024 ||| 256) ≠ 0) state afterHangulT afterHangulT
  | .hangulLvOrLvt =>
    if ch ≤ 0xD788 ∧ ch &&& 3 = 0 ∧ ((ch - 0xAC00) >>> 2) % 7 = 0 then
      enter (state = afterHangulL) state afterHangulLv afterHangulLv
    else enter (state = afterHangulL) state afterHangulLvt afterHangulLvt
  | .cr => (afterCr, true)
  | .lf => if state = afterCr then (initial, false) else (initial, true)
  | .control => (initial, true)

/-- width_calculator.hpp 161–174 std_width_calc_func_return; `ptr` is the number of code points before it, `none` is nullptr. -/
structure Ret where
  remaining : Int
  state : Nat
  ptr : Option Nat
deriving DecidableEq, Repr

/-- width_calculator.hpp 178–390 std_width_calc_func; `pos` is the number of code points before `str`. `width -= ch_width` (223) happens only
with 0 < ch_width < width. -/
def calcFunc (returnPos : Bool) (pos : Nat) : List Nat → Int → Nat → Ret
  | [], width, state => ⟨width, state, some pos⟩
  | ch :: t, width, state =>
    let (l, cols) := classify ch
    let chWidth : Int := cols * 65536
    let (state', new) := handle l ch state
    if new then
      if chWidth ≥ width then
        if !returnPos then ⟨0, 0, none⟩
        else if chWidth > width then ⟨0, 0, some pos⟩
        else calcFunc returnPos (pos + 1) t 0 state'
      else calcFunc returnPos (pos + 1) t (width - chWidth) state'
    else calcFunc returnPos (pos + 1) t width state'

/-- width_calculator.hpp 488–500: the loop of std_width_calc_t::str_width; what remains of the limit at the end. More iterations than there
are units (`fuel`) would be an endless loop. -/
def strWidthLoop (S : Source) : Nat → List Nat → Int → Nat → Option Int
  | 0, _, _, _ => none
  | fuel + 1, src, remaining, state =>
    (S.toU32 32 src).bind fun (buff, rest, more) =>
      let res := calcFunc false 0 buff remaining state
      if res.remaining ≤ 0 ∨ !more then some res.remaining
      else strWidthLoop S fuel rest res.remaining res.state

/-- width_calculator.hpp 474–501 std_width_calc_t::str_width. -/
def stdStrWidth (S : Source) (limit : Int) (src : List Nat) : Option Int :=
  let limit := if limit ≤ 0 then 0 else limit
  (strWidthLoop S (src.length + 1) src limit 0).bind fun r => Width.sub limit r

/-- width_calculator.hpp 517–536: the loop of std_width_calc_t::str_width_and_pos. `resw.ptr` is never null here. -/
def strWidthPosLoop (S : Source) (limit : Int) : Nat → List Nat → Int → Nat → Option (Int × List Nat)
  | 0, _, _, _ => none
  | fuel + 1, src, remaining, state =>
    (S.toU32 32 src).bind fun (buff, rest, more) =>
      let res := calcFunc true 0 buff remaining state
      if res.remaining ≤ 0 ∨ !more then
        (Width.sub limit res.remaining).bind fun width =>
          if res.ptr ≠ some buff.length then
            res.ptr.bind fun dist => (S.toU32Pos dist src).map fun p => (width, p)
          else some (width, rest)
      else strWidthPosLoop S limit fuel rest res.remaining res.state

/-- width_calculator.hpp 503–537 std_width_calc_t::str_width_and_pos: the width and the rest of the text from the position. -/
def stdStrWidthPos (S : Source) (limit : Int) (src : List Nat) : Option (Int × List Nat) :=
  strWidthPosLoop S limit (src.length + 1) src limit 0

end Strf.WidthCalc

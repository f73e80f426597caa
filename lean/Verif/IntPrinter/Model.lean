import Verif.IntPrinter.Spec
import Verif.IntDigits.Model
import Verif.Width.Model
import Verif.Print.Charset
/-!
# Model of the integer printers of include/strf/detail/printable_types/int.hpp (lines 1079–2106)

A printer is constructed from the value, the format and the facets: this computes its data members and what it adds to
the premeasurements. `none` is undefined behaviour (signed overflow). Its call operator then writes to a destination.

Simplifications: the width and size added to the premeasurements are given as numbers (the sum over all arguments is
in Verif/Print/Premeasure.lean); in destinations the code units are numbers, so that the casts to `CharT` of
ASCII characters are the identity.
-/
namespace Strf.IntPrinter
open Spec Strf.IntDigits Strf.IntDigits.Spec Strf.Numpunct Strf.Print
open Strf.Dest (Dest)

variable {σ : Type}

/-- what a printer adds to the premeasurements -/
structure Pre where
  width : Int
  size : Nat
deriving DecidableEq, Repr

/-- the characters of `strf::showsign`, detail/format_functions.hpp 14: '\0', '+' and ' ' -/
def signChar : Showsign → Nat
  | .negativeOnly => 0
  | .positiveAlso => 0x2B
  | .fillInstead => 0x20

/-! ## default_int_printer, aligned_default_int_printer -/

/-- int.hpp 1147–1149: the members of default_int_printer -/
structure DefaultInt where
  uvalue : Nat
  digcount : Nat
  negative : Bool
deriving DecidableEq, Repr

/-- int.hpp 1114–1144 (and 1195–1221): the members from the value; for unsigned types `negative_` is false. -/
def DefaultInt.ofValue (x : IntVal) : Option DefaultInt :=
  if x.signed then
    if x.value ≥ 0 then
      some ⟨x.value.toNat, countDigits 10 x.bytes x.value.toNat, false⟩
    else
      match unsignedAbs (8 * x.bytes) x.value with
      | none => none
      | some u => some ⟨u, countDigits 10 x.bytes u, true⟩
  else some ⟨x.value.toNat, countDigits 10 x.bytes x.value.toNat, false⟩

/-- conversion of `bool` to a number -/
def b2n (b : Bool) : Nat := if b then 1 else 0
/-- conversion of `bool` to `int` -/
def b2i (b : Bool) : Int := if b then 1 else 0

/-- int.hpp 1131–1132, 1143–1144 -/
def DefaultInt.pre (d : DefaultInt) : Pre := ⟨d.digcount + b2i d.negative, d.digcount + b2n d.negative⟩

/-- int.hpp 1152–1164 default_int_printer::operator() -/
def DefaultInt.print (D : Dest Nat σ) (d : DefaultInt) (s : σ) : Option σ :=
  pokeField D (Dest.ensure D s (d.digcount + b2n d.negative)) (b2n d.negative + d.digcount)
    ((if d.negative then [0x2D] else []) ++ back 10 .lower d.uvalue)

/-- the alignment_format, detail/format_functions.hpp: `width` is the representation of a `width_t` -/
structure AlignFmt where
  fill : Nat
  align : Align
  width : Int
deriving DecidableEq, Repr

/-- int.hpp 1232–1238 the members of aligned_default_int_printer -/
structure AlignedDefault where
  data : DefaultInt
  fillcount : Int
  align : Align
  fillchar : Nat
deriving DecidableEq, Repr

/-- int.hpp 1171–1189, 1223–1230 the constructor of aligned_default_int_printer, with init_fill_ -/
def AlignedDefault.make (x : IntVal) (a : AlignFmt) : Option AlignedDefault :=
  match DefaultInt.ofValue x with
  | none => none
  | some d =>
    let subWidth := (d.digcount : Int) + b2i d.negative
    let width := Width.round a.width
    some ⟨d, if width > subWidth then width - subWidth else 0, a.align, a.fill⟩

/-- int.hpp 1184–1188 -/
def AlignedDefault.pre (C : Charset σ) (p : AlignedDefault) : Pre :=
  ⟨p.fillcount + p.data.digcount + b2i p.data.negative,
    p.fillcount.toNat * C.charSize p.fillchar + p.data.digcount + b2n p.data.negative⟩

/-- int.hpp 1241–1273 aligned_default_int_printer::operator() -/
def AlignedDefault.print (D : Dest Nat σ) (C : Charset σ) (p : AlignedDefault) (s : σ) : Option σ :=
  let left : Int := if p.fillcount > 0 then
      match p.align with | .left => 0 | .right => p.fillcount | .center => p.fillcount / 2
    else 0
  let right : Int := if p.fillcount > 0 then
      match p.align with | .left => p.fillcount | .right => 0 | .center => p.fillcount - p.fillcount / 2
    else 0
  (if p.fillcount > 0 ∧ p.align ≠ .left then C.encodeFill s left p.fillchar else some s).bind fun s =>
  (p.data.print D s).bind fun s =>
  if right > 0 then C.encodeFill s right p.fillchar else some s

/-! ## int_printer_no_pad0_nor_punct -/

/-- int.hpp 1275–1280 -/
structure Plain where
  uvalue : Nat
  digcount : Nat
  pfx : Nat
deriving DecidableEq, Repr

/-- `static_cast<make_unsigned<IntT>>(value)` -/
def castUnsigned (x : IntVal) : Nat := (x.value % 2 ^ (8 * x.bytes)).toNat

/-- int.hpp 1309, 1561 `1 + -(value + 1)` in the type of the promoted value -/
def negSucc (bytes : Nat) (v : Int) : Option Nat :=
  let t := -(v + 1)
  if t < 2 ^ (8 * bytes - 1) then some (1 + t.toNat) else none

/-- int.hpp 1282–1294, 1296–1315, 1317–1334 the three overloads of `init`. In base 10 `prefix` is the character of the sign; in
the others the number of characters. -/
def Plain.init (base : Nat) (sign : Showsign) (showbase : Bool) (x : IntVal) : Option Plain :=
  if base = 10 then
    if x.signed then
      if x.value ≥ 0 then
        some ⟨x.value.toNat, countDigits 10 x.bytes x.value.toNat, signChar sign⟩
      else
        match negSucc x.bytes x.value with
        | none => none
        | some u => some ⟨u, countDigits 10 x.bytes u, 0x2D⟩
    else some ⟨x.value.toNat, countDigits 10 x.bytes x.value.toNat, 0⟩
  else
    let pfx := if base = 8 then (if showbase ∧ x.value ≠ 0 then 1 else 0) else (if showbase then 2 else 0)
    some ⟨castUnsigned x, countDigits base x.bytes (castUnsigned x), pfx⟩

/-- int.hpp 1293, 1314, 1333, and the constructors 1341–1353, 1377–1391, 1419–1431, 1454–1468 -/
def Plain.pre (base : Nat) (p : Plain) : Pre :=
  let w := p.digcount + (if base = 10 then (if p.pfx ≠ 0 then 1 else 0) else p.pfx)
  ⟨w, w⟩

/-- int.hpp 1399, 1476, 1758–1762, 1943–1947 `xb | ((lettercase_ != strf::uppercase) << 5)` -/
def baseLetter (base : Nat) (lc : Lettercase) : Nat :=
  (if base = 16 then 0x58 else 0x42) ||| (if lc ≠ .upper then 32 else 0)

/-- int.hpp 1356–1366, 1393–1405, 1433–1443, 1470–1480 the call operators. In base 10 the argument of `ensure` is
`data_.digcount + data_.prefix != 0`: 1. -/
def Plain.print (D : Dest Nat σ) (base : Nat) (lc : Lettercase) (p : Plain) (s : σ) : Option σ :=
  if base = 10 then
    pokeField D (Dest.ensure D s (if p.digcount + p.pfx ≠ 0 then 1 else 0)) ((if p.pfx ≠ 0 then 1 else 0) + p.digcount)
      ((if p.pfx ≠ 0 then [p.pfx] else []) ++ back 10 .lower p.uvalue)
  else if base = 2 then
    (if p.pfx ≠ 0 then D.poke (Dest.ensure D s 2) [0x30, baseLetter 2 lc] else some s).bind fun s =>
    writeInt D 2 lc p.uvalue p.digcount s
  else if base = 16 then
    pokeField D (Dest.ensure D s (p.digcount + p.pfx)) ((if p.pfx ≠ 0 then 2 else 0) + p.digcount)
      ((if p.pfx ≠ 0 then [0x30, baseLetter 16 lc] else []) ++ back 16 lc p.uvalue)
  else
    pokeField D (Dest.ensure D s (p.digcount + p.pfx)) ((if p.pfx ≠ 0 then 1 else 0) + p.digcount)
      ((if p.pfx ≠ 0 then [0x30] else []) ++ back base lc p.uvalue)

/-! ## int_printer_static_base_and_punct -/

/-- int.hpp 1487–1496 fmt_int_printer_data -/
structure Data where
  uvalue : Nat
  digcount : Nat
  leadingZeros : Int
  leftFill : Int
  rightFill : Int
  fillchar : Nat
  hasPrefix : Bool
  sign : Nat
deriving DecidableEq, Repr

/-- the initial values of the members -/
def Data.zero : Data := ⟨0, 0, 0, 0, 0, 0x20, false, 0⟩

/-- int.hpp 1542–1566, 1568–1580, 1582–1591 init_1: the value and the sign. (The overloads for default_int_format, 1505–1540,
are not called: the format is converted before.) -/
def init1 (base : Nat) (sign : Showsign) (x : IntVal) (d : Data) : Option Data :=
  if base = 10 then
    if x.signed then
      if x.value ≥ 0 then
        some { d with uvalue := x.value.toNat, sign := signChar sign, hasPrefix := decide (sign ≠ .negativeOnly) }
      else if x.bytes < 8 then
        some { d with uvalue := (-x.value).toNat, sign := 0x2D, hasPrefix := true }
      else
        match negSucc x.bytes x.value with
        | none => none
        | some u => some { d with uvalue := u, sign := 0x2D, hasPrefix := true }
    else some { d with uvalue := x.value.toNat, sign := 0, hasPrefix := false }
  else some { d with uvalue := castUnsigned x, sign := 0 }

/-- int.hpp 1604–1621, 1644–1661, 1794–1811 (three copies): has_prefix, prefix_size and the precision. -/
def prefixPart (base : Nat) (showbase : Bool) (precision : Int) (d : Data) : Data × Int × Int :=
  if base = 10 then (d, b2i d.hasPrefix, precision)
  else if base = 8 then
    if showbase ∧ d.uvalue ≠ 0 then
      ({ d with hasPrefix := true }, 1, if precision > 0 then precision - 1 else precision)
    else ({ d with hasPrefix := false }, 0, precision)
  else ({ d with hasPrefix := showbase }, if showbase then 2 else 0, precision)

/-- int.hpp 1622–1626, 1662–1666, 1812–1816 (three copies): the leading zeros and the width of the content; `none` if the
addition overflows `int`. -/
def zerosPart (precision pad0 : Int) (digcount content : Int) : Option (Int × Int) :=
  let zerosA := if precision > digcount then precision - digcount else 0
  let zerosB := if pad0 > content then pad0 - content else 0
  let zeros := max zerosA zerosB
  if content + zeros ≤ 2147483647 then some (zeros, content + zeros) else none

/-- int.hpp 1593–1596 fmt_int_printer_data_init_result -/
structure InitRes where
  subWidth : Int
  fillcount : Int
deriving DecidableEq, Repr

/-- int.hpp 1598–1632 init_fmt_int_printer_data for default_alignment_format -/
def initDefault (fmt : Fmt) (d : Data) : Option (Data × InitRes) :=
  let d := { d with digcount := countDigits fmt.base 8 d.uvalue }
  let (d, prefixSize, precision) := prefixPart fmt.base fmt.showbase fmt.precision d
  match zerosPart precision fmt.pad0 d.digcount (d.digcount + prefixSize) with
  | none => none
  | some (zeros, content) =>
    some ({ d with leadingZeros := zeros, fillchar := 0x20, leftFill := 0, rightFill := 0 }, ⟨content, 0⟩)

/-- int.hpp 1667–1693, 1817–1844 (two copies): the fill characters; the result is not reduced by the separators here. -/
def fillPart (base : Nat) (a : AlignFmt) (content : Int) (d : Data) : Data × InitRes :=
  let fmtWidth := Width.round a.width
  let d := { d with fillchar := a.fill }
  let fillSign := decide (base = 10) && decide (d.sign = 0x20)
  if fmtWidth ≤ content then
    let x := fillSign && decide (a.fill ≠ 0x20)
    ({ d with leftFill := b2i x, rightFill := 0, hasPrefix := d.hasPrefix && !x }, ⟨content - b2i x, b2i x⟩)
  else
    let fillcount := fmtWidth - content
    let d := { d with hasPrefix := d.hasPrefix && !fillSign }
    let d := match a.align with
      | .left => { d with leftFill := b2i fillSign, rightFill := fillcount }
      | .right => { d with leftFill := fillcount + b2i fillSign, rightFill := 0 }
      | .center => { d with leftFill := fillcount / 2 + b2i fillSign, rightFill := fillcount / 2 + fillcount % 2 }
    (d, ⟨content - b2i fillSign, fillcount + b2i fillSign⟩)

/-- int.hpp 1634–1694 init_fmt_int_printer_data for alignment_format -/
def initAligned (fmt : Fmt) (a : AlignFmt) (d : Data) : Option (Data × InitRes) :=
  let d := { d with digcount := countDigits fmt.base 8 d.uvalue }
  let (d, prefixSize, precision) := prefixPart fmt.base fmt.showbase fmt.precision d
  match zerosPart precision fmt.pad0 d.digcount (d.digcount + prefixSize) with
  | none => none
  | some (zeros, content) => some (fillPart fmt.base a content { d with leadingZeros := zeros })

/-- int.hpp 1723: which of the two is called -/
def initAny (fmt : Fmt) (a : Option AlignFmt) (d : Data) : Option (Data × InitRes) :=
  match a with
  | none => initDefault fmt d
  | some a => initAligned fmt a d

/-- int.hpp 1698–1730 the constructor of int_printer_static_base_and_punct<Base, false>; `a` is `none` if there is no alignment
format. -/
def Data.make (C : Charset σ) (fmt : Fmt) (a : Option AlignFmt) (x : IntVal) : Option (Data × Pre) :=
  match init1 fmt.base fmt.sign x .zero with
  | none => none
  | some d =>
    match initAny fmt a d with
    | none => none
    | some (d, w) =>
      some (d, ⟨w.subWidth + w.fillcount,
        w.subWidth.toNat + (if w.fillcount > 0 then w.fillcount.toNat * C.charSize ((a.map (·.fill)).getD 0x20) else 0)⟩)

/-- int.hpp 1748–1765 (and 1933–1950): the prefix -/
def printPrefix (D : Dest Nat σ) (base : Nat) (lc : Lettercase) (d : Data) (s : σ) : Option σ :=
  if d.hasPrefix then
    if base = 10 then D.poke (Dest.ensure D s 1) [d.sign]
    else if base = 8 then D.poke (Dest.ensure D s 1) [0x30]
    else D.poke (Dest.ensure D s 2) [0x30, baseLetter base lc]
  else some s

/-- int.hpp 1745–1747, 1768–1770, 1930–1932, 1968–1970 -/
def printFill (C : Charset σ) (n : Int) (ch : Nat) (s : σ) : Option σ :=
  if n > 0 then C.encodeFill s n ch else some s

/-- int.hpp 1741–1771 int_printer_static_base_and_punct<Base, false>::operator() -/
def Data.print (D : Dest Nat σ) (C : Charset σ) (base : Nat) (lc : Lettercase) (d : Data) (s : σ) : Option σ :=
  (printFill C d.leftFill d.fillchar s).bind fun s =>
  (printPrefix D base lc d s).bind fun s =>
  (Dest.writeFill D s d.leadingZeros 0x30).bind fun s =>
  (writeInt D base lc d.uvalue d.digcount s).bind fun s =>
  printFill C d.rightFill d.fillchar s

/-- int.hpp 1498–1503 punct_fmt_int_printer_data; `grouping` is the representation of a digits_grouping -/
structure PData where
  data : Data
  sepcount : Nat
  sepsize : Nat
  sepchar : Nat
  grouping : Nat
deriving DecidableEq, Repr

/-- int.hpp 1783–1793: sepsize and sepcount; with an invalid separator the grouping is dropped. -/
def punctPart (C : Charset σ) (digcount sepchar grouping : Nat) : Nat × Nat × Nat :=
  let sepcount := separatorsCount grouping digcount
  if sepchar ≥ 0x80 ∧ sepcount ≠ 0 then
    match C.validate sepchar with
    | none => (sepcount, 0, emptyWord)
    | some n => (sepcount, n, grouping)
  else (sepcount, 1, grouping)

/-- int.hpp 1773–1845 init_punct_fmt_int_printer_data -/
def initPunct (C : Charset σ) (fmt : Fmt) (a : AlignFmt) (sepchar grouping : Nat) (d : Data) :
    Option (PData × InitRes) :=
  let d := { d with digcount := countDigits fmt.base 8 d.uvalue }
  let (sepcount, sepsize, grouping) := punctPart C d.digcount sepchar grouping
  let (d, prefixSize, precision) := prefixPart fmt.base fmt.showbase fmt.precision d
  match zerosPart precision fmt.pad0 d.digcount (d.digcount + sepcount + prefixSize) with
  | none => none
  | some (zeros, content) =>
    let (d, w) := fillPart fmt.base a content { d with leadingZeros := zeros }
    some (⟨d, sepcount, sepsize, sepchar, grouping⟩, { w with subWidth := w.subWidth - sepcount })

/-- int.hpp 1848–1914 the constructors of int_printer_static_base_and_punct<Base, true>. Without an alignment format `a` is the
default one: fill ' ', width 0. -/
def PData.make (C : Charset σ) (fmt : Fmt) (a : AlignFmt) (sepchar grouping : Nat) (x : IntVal) :
    Option (PData × Pre) :=
  match init1 fmt.base fmt.sign x .zero with
  | none => none
  | some d =>
    match initPunct C fmt a sepchar grouping d with
    | none => none
    | some (p, w) =>
      some (p, ⟨w.subWidth + w.fillcount + p.sepcount,
        w.subWidth.toNat + (if w.fillcount ≠ 0 then w.fillcount.toNat * C.charSize a.fill else 0) +
          p.sepcount * p.sepsize⟩)

/-- int.hpp 1955–1959: the unit stored for the separator. `encode_char_` stores the units of the character at `&sepchar`, where
there is room for one: more are a buffer overflow. -/
def sepUnit (C : Charset σ) (sepchar : Nat) : Option Nat :=
  if sepchar ≥ 0x80 then
    match C.encodeChar sepchar with
    | [u] => some u
    | _ => none
  else some sepchar

/-- int.hpp 1926–1971 int_printer_static_base_and_punct<Base, true>::operator() -/
def PData.print (D : Dest Nat σ) (C : Charset σ) (base : Nat) (lc : Lettercase) (p : PData) (s : σ) : Option σ :=
  (printFill C p.data.leftFill p.data.fillchar s).bind fun s =>
  (printPrefix D base lc p.data s).bind fun s =>
  (Dest.writeFill D s p.data.leadingZeros 0x30).bind fun s =>
  (if p.sepcount = 0 then writeInt D base lc p.data.uvalue p.data.digcount s
   else if p.sepsize = 1 then
     match sepUnit C p.sepchar with
     | none => none
     | some u => writeIntLittle D base lc u p.data.uvalue p.grouping p.data.digcount p.sepcount s
   else writeIntBig D base lc (C.encodeChar p.sepchar) p.data.uvalue p.grouping p.data.digcount s).bind fun s =>
  printFill C p.data.rightFill p.data.fillchar s

/-! ## int_printer_full_dynamic -/

/-- a numpunct facet: grouping() and thousands_sep() -/
structure Punct where
  grouping : Nat
  sep : Nat
deriving DecidableEq, Repr

/-- int.hpp 1974–2053 the constructor of int_printer_full_dynamic: which int_printer_static_base_and_punct<Base, true> it holds
(the base, its data) and the premeasurements. `facet base` is the numpunct_c<base> facet. -/
def dynMake (C : Charset σ) (fmt : Fmt) (punctuate : Bool) (a : AlignFmt) (facet : Nat → Punct) (x : IntVal) :
    Option (Nat × PData × Pre) :=
  let base := if fmt.base = 16 then 16 else if fmt.base = 8 then 8 else if fmt.base = 2 then 2 else 10
  let sep := if punctuate then (facet base).sep else 0x2C
  let grp := if punctuate then (facet base).grouping else emptyWord
  (PData.make C { fmt with base := base } a sep grp x).map fun r => (base, r.1, r.2)

/-- int.hpp 2072–2075 int_printer_full_dynamic::operator() -/
def dynPrint (D : Dest Nat σ) (C : Charset σ) (lc : Lettercase) (r : Nat × PData × Pre) (s : σ) : Option σ :=
  r.2.1.print D C r.1 lc s

end Strf.IntPrinter

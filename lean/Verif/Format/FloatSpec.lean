import Verif.Format.Spec
import Verif.Float.HexMake
import Verif.Float.Decode
/-!
# What a chain of format functions of a floating-point number asks for

docs/ref_format_functions.adoc. See Spec.lean: the value of an option is the one given last. The text of a number with
given options (`floatText`) is put together from Float/Spec.lean.
-/
namespace Strf.Format
open Strf.IntPrinter.Spec Strf.IntDigits.Spec
open Strf.Float (FloatT FloatFmt Notation Finite signBit manBits decode finite finiteWidth specialText specialWidth
  hexFormatted hexWidth hexLead hexFrac hexExponent HexCarryOk CarryOk precision specNotation)
open Strf.Dragonbox (toDecimal)

/-- the format functions of floating-point numbers -/
inductive FloatCall
  /-- `+` -/ | plus
  /-- `~`, `.fill_sign()` -/ | fillSign
  /-- `*` -/ | star
  /-- `!`, `.punct()` -/ | punct
  /-- `.p(n)` -/ | p (n : Int)
  /-- `.pad0(n)` -/ | pad0 (n : Int)
  | sci | fixed | gen | hex
  /-- `.float_notation(n)`, `.set_float_notation(n)` -/ | nota (n : Notation)
  /-- `.set_float_format(float_format{…})` -/ | set (f : FloatFmt)
  /-- `.set_float_format(float_format_no_punct{…})` -/
  | setNoPunct (precision pad0 : Int) (n : Notation) (sign : Showsign) (showpoint : Bool)
  /-- `.set_float_format(default_float_format{})` -/ | clear
  | align (a : AlignCall)
deriving DecidableEq, Repr

namespace FloatCall

def precision? : FloatCall → Option Int
  | .p n => some n
  | .set f => some f.precision
  | .setNoPunct pr _ _ _ _ => some pr
  | .clear => some (-1)
  | _ => none

def pad0? : FloatCall → Option Int
  | .pad0 n => some n
  | .set f => some f.pad0
  | .setNoPunct _ z _ _ _ => some z
  | .clear => some 0
  | _ => none

def nota? : FloatCall → Option Notation
  | .sci => some .scientific
  | .fixed => some .fixed
  | .gen => some .general
  | .hex => some .hex
  | .nota n => some n
  | .set f => some f.nota
  | .setNoPunct _ _ n _ _ => some n
  | .clear => some .general
  | _ => none

def sign? : FloatCall → Option Showsign
  | .plus => some .positiveAlso
  | .fillSign => some .fillInstead
  | .set f => some f.sign
  | .setNoPunct _ _ _ s _ => some s
  | .clear => some .negativeOnly
  | _ => none

def showpoint? : FloatCall → Option Bool
  | .star => some true
  | .set f => some f.showpoint
  | .setNoPunct _ _ _ _ b => some b
  | .clear => some false
  | _ => none

def punct? : FloatCall → Option Bool
  | .punct => some true
  | .set f => some f.punctuate
  | .setNoPunct .. => some false
  | .clear => some false
  | _ => none

def align? : FloatCall → Option AlignCall
  | .align a => some a
  | _ => none

end FloatCall

/-- the options asked for; precision -1 is none -/
def floatOptions (cs : List FloatCall) : FloatFmt where
  precision := last FloatCall.precision? (-1) cs
  pad0 := last FloatCall.pad0? 0 cs
  nota := last FloatCall.nota? .general cs
  sign := last FloatCall.sign? .negativeOnly cs
  showpoint := last FloatCall.showpoint? false cs
  punctuate := last FloatCall.punct? false cs

/-- the alignment functions among the calls -/
def floatAlignCalls (cs : List FloatCall) : List AlignCall := cs.filterMap FloatCall.align?

/-- The text of a floating-point number with these options: infinity or NaN, the hexadecimal notation, or one of the
others. `point`, `point16` are the decimal points for base 10 and 16. -/
def floatText (enc : Nat → List Nat) (lc : Lettercase) (point point16 sep : Nat) (gs : List Nat) (rep : Bool) (f : FloatFmt)
    (lay : Layout) (T : FloatT) (bits : Nat) : List Nat :=
  if Float.expBits T bits = 2 ^ T.eSize - 1 then specialText enc lc f lay (signBit T bits) (decide (manBits T bits ≠ 0))
  else if f.nota = .hex then
    hexFormatted enc lc point16 f lay (signBit T bits) (hexLead T bits) (hexFrac T bits) (hexExponent T bits)
  else finite enc lc point sep gs rep f lay (signBit T bits) (decode toDecimal T bits).m10 (decode toDecimal T bits).e10

/-- its width -/
def floatWidth (gs : List Nat) (rep : Bool) (f : FloatFmt) (lay : Layout) (T : FloatT) (bits : Nat) : Nat :=
  if Float.expBits T bits = 2 ^ T.eSize - 1 then specialWidth f lay (signBit T bits)
  else if f.nota = .hex then hexWidth f lay (signBit T bits) (hexLead T bits) (hexFrac T bits) (hexExponent T bits)
  else finiteWidth gs rep f lay (signBit T bits) (decode toDecimal T bits).m10 (decode toDecimal T bits).e10

/-- the numbers and formats for which the printers are right (C57–C61; otherwise see `Float.general_carry_sign_wrong`,
`Float.fixed_grouping_carry_wrong`, `Float.general_alt_zeros_wrong`, `Float.hex_carry_wrong`): infinity and NaN; and no
rounding that carries too far -/
def RoundOk (gs : List Nat) (rep : Bool) (f : FloatFmt) (T : FloatT) (bits : Nat) : Prop :=
  Float.expBits T bits = 2 ^ T.eSize - 1 ∨ Float.FmtOk f ∧
  if f.nota = .hex then HexCarryOk (hexLead T bits) (hexFrac T bits) (precision f.precision)
  else CarryOk gs rep (specNotation f.nota) (precision f.precision) f.showpoint f.sign (signBit T bits)
    (decode toDecimal T bits).m10 (decode toDecimal T bits).e10

/-- `+fixed(x).p(3) > 12` -/
example : floatOptions [.fixed, .p 3, .plus, .align (.right 786432)] = ⟨3, 0, .fixed, .positiveAlso, false, false⟩ := by decide

end Strf.Format

import Verif.Format.FloatSpec
import Verif.Format.Model
/-!
# Model of the format specifier classes of floating-point numbers

include/strf/detail/printable_types/float.hpp 105–705 and 2581–2625. See Model.lean. Every chain compiles: the copy constructors
of the classes use the public `get_float_format()`.
-/
namespace Strf.Format
open Strf.IntPrinter.Spec Strf.IntDigits.Spec
open Strf.IntPrinter (AlignFmt)
open Strf.Float (FloatT FloatFmt Notation Fast Printer decode ToDecimal)
open Strf.Print (Item fixed)
open Strf.Dest (Dest)
open Strf.Dragonbox (toDecimal)

/-- float.hpp 112–140 `float_format{}` -/
def FloatFmt.dflt : FloatFmt := ⟨-1, 0, .general, .negativeOnly, false, false⟩

/-- the format specifier of floating-point numbers in a value_and_format: float_format_specifier,
float_format_specifier_no_punct and float_format_specifier_full_dynamic (float.hpp 184–209), with the data. -/
inductive FloatSpec
  | dflt
  | noPunct (f : FloatFmt)
  | full (f : FloatFmt)
deriving DecidableEq, Repr

/-- float.hpp 211–411 default_float_format_specifier_fn -/
def fstepDefault : FloatCall → FloatSpec
  | .plus => .noPunct { FloatFmt.dflt with sign := .positiveAlso }
  | .fillSign => .noPunct { FloatFmt.dflt with sign := .fillInstead }
  | .star => .noPunct { FloatFmt.dflt with showpoint := true }
  | .punct => .full { FloatFmt.dflt with punctuate := true }
  | .p n => .noPunct { FloatFmt.dflt with precision := n }
  | .pad0 n => .noPunct { FloatFmt.dflt with pad0 := n }
  | .sci => .noPunct { FloatFmt.dflt with nota := .scientific }
  | .fixed => .noPunct { FloatFmt.dflt with nota := .fixed }
  | .gen => .dflt
  | .hex => .noPunct { FloatFmt.dflt with nota := .hex }
  | .nota n => .noPunct { FloatFmt.dflt with nota := n }
  | .set f => .full f
  | .setNoPunct pr z n s b => .noPunct ⟨pr, z, n, s, b, false⟩
  | .clear => .dflt
  | .align _ => .dflt

/-- float.hpp 413–564 float_format_specifier_no_punct_fn. The conversion of float_format_no_punct to float_format (150–153)
sets `punctuate` to false. -/
def fstepNoPunct (d : FloatFmt) : FloatCall → FloatSpec
  | .plus => .noPunct { d with sign := .positiveAlso }
  | .fillSign => .noPunct { d with sign := .fillInstead }
  | .star => .noPunct { d with showpoint := true }
  | .punct => .full { d with punctuate := true }
  | .p n => .noPunct { d with precision := n }
  | .pad0 n => .noPunct { d with pad0 := n }
  | .sci => .noPunct { d with nota := .scientific }
  | .fixed => .noPunct { d with nota := .fixed }
  | .gen => .noPunct { d with nota := .general }
  | .hex => .noPunct { d with nota := .hex }
  | .nota n => .noPunct { d with nota := n }
  | .set f => .full f
  | .setNoPunct pr z n s b => .noPunct ⟨pr, z, n, s, b, false⟩
  | .clear => .dflt
  | .align _ => .noPunct d

/-- float.hpp 566–705 float_format_specifier_full_dynamic_fn -/
def fstepFull (d : FloatFmt) : FloatCall → FloatSpec
  | .plus => .full { d with sign := .positiveAlso }
  | .fillSign => .full { d with sign := .fillInstead }
  | .star => .full { d with showpoint := true }
  | .punct => .full { d with punctuate := true }
  | .p n => .full { d with precision := n }
  | .pad0 n => .full { d with pad0 := n }
  | .sci => .full { d with nota := .scientific }
  | .fixed => .full { d with nota := .fixed }
  | .gen => .full { d with nota := .general }
  | .hex => .full { d with nota := .hex }
  | .nota n => .full { d with nota := n }
  | .set f => .full f
  | .setNoPunct pr z n s b => .noPunct ⟨pr, z, n, s, b, false⟩
  | .clear => .dflt
  | .align _ => .full d

/-- float.hpp 213–705: a format function of the floating-point specifier -/
def FloatSpec.step : FloatSpec → FloatCall → FloatSpec
  | .dflt => fstepDefault
  | .noPunct f => fstepNoPunct f
  | .full f => fstepFull f

/-- float.hpp 2583–2587: a value_and_format of a floating-point number: its format specifiers -/
structure FloatVal where
  spec : FloatSpec
  align : Option AlignFmt
deriving DecidableEq, Repr

/-- `fmt(x)`, float.hpp 2586 -/
def FloatVal.init : FloatVal := ⟨.dflt, none⟩

/-- float.hpp 213–705: a call of a format function -/
def FloatVal.step (v : FloatVal) (c : FloatCall) : FloatVal :=
  match c with
  | .align a => ⟨v.spec.step (.align a), alignStep v.align a⟩
  | c => ⟨v.spec.step c, v.align⟩

/-- float.hpp 213–705: `fmt(x).f().g()…` -/
def floatChain (cs : List FloatCall) : FloatVal := cs.foldl FloatVal.step .init

variable {σ : Type}

/-- float.hpp 2589–2600 make_printer of a value without format. The size is added, and the width, converted to int16_t, only
if one of them is demanded and there is width left. -/
def fastItem (D : Dest Nat σ) (lc : Lettercase) (T : FloatT) (bits : Nat) : Item σ where
  make p :=
    let f := Fast.make (decode toDecimal T bits) lc
    if p.hasRemaining ∨ p.size.isSome then
      (p.addWidth (Width.ofI16 (CInt.i16 f.size))).map fun p => (p.addSize f.size.toNat, f.print D)
    else some (p, f.print D)

/-- float.hpp 2283–2306, 2613–2624: punct_double_printer without punctuation -/
def plainFloatItem (D : Dest Nat σ) (C : Print.Charset σ) (unitBits : Nat) (lc : Lettercase) (T : FloatT) (bits : Nat)
    (f : FloatFmt) (a : AlignFmt) : Item σ where
  make p := (Printer.makePlain C toDecimal lc T bits f a).bind fun r =>
    (fixed r.2.width r.2.size (r.1.print D C unitBits)).make p

/-- float.hpp 2230–2281, 2613–2624: punct_double_printer for float_format_specifier_full_dynamic -/
def punctFloatItem (D : Dest Nat σ) (C : Print.Charset σ) (unitBits : Nat) (lc : Lettercase) (np10 np16 : Numpunct.Facet)
    (T : FloatT) (bits : Nat) (f : FloatFmt) (a : AlignFmt) : Item σ where
  make p := (Printer.makePunct C toDecimal lc np10 np16 T bits f a).bind fun r =>
    (fixed r.2.width r.2.size (r.1.print D C unitBits)).make p

/-- the facets of a floating-point number: the letter case for each type (facets can be constrained to a type, C55), and
the numpunct facets of base 10 and 16 -/
structure FloatFacets where
  lc : FloatT → Lettercase
  np10 : Numpunct.Facet
  np16 : Numpunct.Facet

/-- float.hpp 2581–2625 float_printing<FloatT>::make_printer: which printer is made. The letter case of a number without
format is looked up with the tag `float` whatever the type is (2593). -/
def FloatVal.item (D : Dest Nat σ) (C : Print.Charset σ) (unitBits : Nat) (F : FloatFacets) (v : FloatVal) (T : FloatT)
    (bits : Nat) : Item σ :=
  match v.spec, v.align with
  | .dflt, none => fastItem D (F.lc .float) T bits
  | .dflt, some a => plainFloatItem D C unitBits (F.lc T) T bits FloatFmt.dflt a
  | .noPunct f, a => plainFloatItem D C unitBits (F.lc T) T bits f (a.getD AlignFmt.dflt)
  | .full f, a => punctFloatItem D C unitBits (F.lc T) F.np10 F.np16 T bits f (a.getD AlignFmt.dflt)

end Strf.Format

import Verif.Format.Spec
import Verif.Print.Ints
/-!
# Model of the format specifier classes of integers and of alignment

include/strf/detail/format_functions.hpp (alignment), include/strf/detail/printable_types/int.hpp (integers). A value with
formats (`value_and_format`, detail/value_and_format.hpp) is a base class per format specifier; a format function either
changes the data member of its class or returns a value whose class is another one (`fmt_replace`), the other base classes
being copied. `none` stands for an expression that does not compile. The functions are called on rvalues, as in an
argument `*strf::hex(x).p(4)`.
-/
namespace Strf.Format
open Strf.IntPrinter.Spec Strf.IntDigits.Spec
open Strf.IntPrinter (AlignFmt Punct Plain dynMake dynPrint)
open Strf.Print (Item fixed intItem fmtIntItem alignedIntItem punctIntItem)
open Strf.Dest (Dest)

/-- format_functions.hpp 21–41: `alignment_format{}` -/
def AlignFmt.dflt : AlignFmt := ⟨0x20, .right, 0⟩

/-- format_functions.hpp 93–142 (alignment_format_specifier_fn<T, true>, `some`) and 186–237 (`<T, false>`, `none`) -/
def alignStep : Option AlignFmt → AlignCall → Option AlignFmt
  | some d, .left w => some { d with align := .left, width := w }
  | some d, .right w => some { d with align := .right, width := w }
  | some d, .center w => some { d with align := .center, width := w }
  | some d, .fill c => some { d with fill := c }
  | some _, .set c w a => some ⟨c, a, w⟩
  | some _, .clear => none
  | none, .left w => some ⟨0x20, .left, w⟩
  | none, .right w => some ⟨0x20, .right, w⟩
  | none, .center w => some ⟨0x20, .center, w⟩
  | none, .fill c => some { AlignFmt.dflt with fill := c }
  | none, .set c w a => some ⟨c, a, w⟩
  | none, .clear => none

/-- the format specifier of integers in a value_and_format, with its data, int.hpp 18–127: default_int_format,
int_format_no_pad0_nor_punct<Base>, int_format_static_base_and_punct<Base, Punctuate>, int_format -/
inductive IntSpec
  | dflt
  | noPad0 (base : Nat) (sign : Showsign) (showbase : Bool)
  | static (base : Nat) (punctuate : Bool) (precision pad0 : Int) (sign : Showsign) (showbase : Bool)
  | dynamic (base : Nat) (precision pad0 : Int) (sign : Showsign) (showbase punctuate : Bool)
deriving DecidableEq, Repr

/-- int.hpp 188–354 default_int_format_specifier_fn -/
def stepDefault : IntCall → Option IntSpec
  | .dec => some .dflt
  | .hex => some (.noPad0 16 .negativeOnly false)
  | .oct => some (.noPad0 8 .negativeOnly false)
  | .bin => some (.noPad0 2 .negativeOnly false)
  | .p n => some (.static 10 false n 0 .negativeOnly false)
  | .pad0 n => some (.static 10 false 0 n .negativeOnly false)
  | .plus => some (.noPad0 10 .positiveAlso false)
  | .fillSign => some (.noPad0 10 .fillInstead false)
  | .star => none
  | .punct => some (.static 10 true 0 0 .negativeOnly false)
  | .base b => some (.dynamic b 0 0 .negativeOnly false false)
  | .set f p => some (.dynamic f.base f.precision f.pad0 f.sign f.showbase p)
  | .align _ => some .dflt

/-- int.hpp 371–609 int_format_specifier_no_pad0_nor_punct_fn; `change_base` 95–101 -/
def stepNoPad0 (base : Nat) (sign : Showsign) (showbase : Bool) : IntCall → Option IntSpec
  | .hex => some (.noPad0 16 sign showbase)
  | .dec => some (.noPad0 10 sign showbase)
  | .oct => some (.noPad0 8 sign showbase)
  | .bin => some (.noPad0 2 sign showbase)
  | .p n => some (.static base false n 0 sign showbase)
  | .pad0 n => some (.static base false 0 n sign showbase)
  | .plus => if base = 10 then some (.noPad0 base .positiveAlso showbase) else none
  | .fillSign => if base = 10 then some (.noPad0 base .fillInstead showbase) else none
  | .star => if base = 10 then none else some (.noPad0 base sign true)
  | .punct => some (.static base true 0 0 sign showbase)
  | .base b => some (.dynamic b 0 0 sign showbase false)
  | .set f p => some (.dynamic f.base f.precision f.pad0 f.sign f.showbase p)
  | .align _ => some (.noPad0 base sign showbase)

/-- int.hpp 611–860 int_format_specifier_static_base_and_punct_fn; `change_static_params` 130–135. `base(int)` (776–790)
builds a new `int_format` of which it sets the base and `punctuate` only. -/
def stepStatic (base : Nat) (punctuate : Bool) (precision pad0 : Int) (sign : Showsign) (showbase : Bool) :
    IntCall → Option IntSpec
  | .hex => some (.static 16 punctuate precision pad0 sign showbase)
  | .dec => some (.static 10 punctuate precision pad0 sign showbase)
  | .oct => some (.static 8 punctuate precision pad0 sign showbase)
  | .bin => some (.static 2 punctuate precision pad0 sign showbase)
  | .p n => some (.static base punctuate n pad0 sign showbase)
  | .pad0 n => some (.static base punctuate precision n sign showbase)
  | .plus => if base = 10 then some (.static base punctuate precision pad0 .positiveAlso showbase) else none
  | .fillSign => if base = 10 then some (.static base punctuate precision pad0 .fillInstead showbase) else none
  | .star => if base = 10 then none else some (.static base punctuate precision pad0 sign true)
  | .punct => some (.static base true precision pad0 sign showbase)
  | .base b => some (.dynamic b 0 0 .negativeOnly false punctuate)
  | .set f p => some (.dynamic f.base f.precision f.pad0 f.sign f.showbase p)
  | .align _ => some (.static base punctuate precision pad0 sign showbase)

/-- int.hpp 862–1075 int_format_specifier_full_dynamic_fn -/
def stepDynamic (base : Nat) (precision pad0 : Int) (sign : Showsign) (showbase punctuate : Bool) :
    IntCall → Option IntSpec
  | .hex => some (.dynamic 16 precision pad0 sign showbase punctuate)
  | .dec => some (.dynamic 10 precision pad0 sign showbase punctuate)
  | .oct => some (.dynamic 8 precision pad0 sign showbase punctuate)
  | .bin => some (.dynamic 2 precision pad0 sign showbase punctuate)
  | .p n => some (.dynamic base n pad0 sign showbase punctuate)
  | .pad0 n => some (.dynamic base precision n sign showbase punctuate)
  | .plus => some (.dynamic base precision pad0 .positiveAlso showbase punctuate)
  | .fillSign => some (.dynamic base precision pad0 .fillInstead showbase punctuate)
  | .star => some (.dynamic base precision pad0 sign true punctuate)
  | .punct => some (.dynamic base precision pad0 sign showbase true)
  | .base b => some (.dynamic b precision pad0 sign showbase punctuate)
  | .set f p => some (.dynamic f.base f.precision f.pad0 f.sign f.showbase p)
  | .align _ => some (.dynamic base precision pad0 sign showbase punctuate)

/-- int.hpp 138–1090: a format function of the integer specifier -/
def IntSpec.step : IntSpec → IntCall → Option IntSpec
  | .dflt => stepDefault
  | .noPad0 b s sb => stepNoPad0 b s sb
  | .static b pu pr pd s sb => stepStatic b pu pr pd s sb
  | .dynamic b pr pd s sb pu => stepDynamic b pr pd s sb pu

/-- int.hpp 138–190: a value_and_format of an integer: its format specifiers -/
structure IntFmt where
  spec : IntSpec
  align : Option AlignFmt
deriving DecidableEq, Repr

/-- `fmt(x)`: the specifiers are int_format_specifier and alignment_format_specifier, int.hpp 2246–2247 -/
def IntFmt.init : IntFmt := ⟨.dflt, none⟩

/-- format_functions.hpp 55–280: the alignment changes from absent to present, or conversely: the other specifiers are copied from the class of another
value_and_format -/
def replacesAlign (before after : Option AlignFmt) : Bool := before.isSome != after.isSome

/-- a call of a format function. The constructor that copies int_format_specifier_full_dynamic_fn<U> (int.hpp 875–880)
reads a private member of another class: replacing the alignment specifier does not compile there. -/
def IntFmt.step (v : IntFmt) (c : IntCall) : Option IntFmt :=
  match c with
  | .align a =>
    let n := alignStep v.align a
    match v.spec with
    | .dynamic .. => if replacesAlign v.align n then none else some ⟨v.spec, n⟩
    | _ => some ⟨v.spec, n⟩
  | c => (v.spec.step c).map fun s => ⟨s, v.align⟩

/-- int.hpp 138–1090: a chain of calls -/
def IntFmt.steps : IntFmt → List IntCall → Option IntFmt
  | v, [] => some v
  | v, c :: cs => (v.step c).bind fun v => v.steps cs

/-- int.hpp 138–1090: `fmt(x).f().g()…` -/
def intChain (cs : List IntCall) : Option IntFmt := IntFmt.init.steps cs

variable {σ : Type}

/-- an integer in int_printer_no_pad0_nor_punct<Base>, int.hpp 1247–1421 -/
def plainIntItem (D : Dest Nat σ) (lc : Lettercase) (base : Nat) (sign : Showsign) (showbase : Bool) (x : IntVal) :
    Item σ where
  make p := (Plain.init base sign showbase x).bind fun r =>
    (fixed (r.pre base).width (r.pre base).size (r.print D base lc)).make p

/-- an integer in int_printer_full_dynamic, int.hpp 1974–2106 -/
def dynIntItem (D : Dest Nat σ) (C : Print.Charset σ) (lc : Lettercase) (fmt : Fmt) (punctuate : Bool) (a : AlignFmt)
    (facet : Nat → Punct) (x : IntVal) : Item σ where
  make p := (dynMake C fmt punctuate a facet x).bind fun r =>
    (fixed r.2.2.width r.2.2.size (dynPrint D C lc r)).make p

/-- int.hpp 2251–2310 int_printing<IntT>::make_printer: which printer is made for which format specifiers. A
value_and_format whose specifiers are empty classes is printed as the value without format. `facet base` is the
numpunct_c<base> facet. -/
def IntFmt.item (D : Dest Nat σ) (C : Print.Charset σ) (lc : Lettercase) (facet : Nat → Punct) (v : IntFmt)
    (x : IntVal) : Item σ :=
  match v.spec, v.align with
  | .dflt, none => intItem D x
  | .dflt, some a => alignedIntItem D C a x
  | .noPad0 b s sb, none => plainIntItem D lc b s sb x
  | .noPad0 b s sb, some a => fmtIntItem D C lc ⟨b, 0, 0, s, sb⟩ (some a) x
  | .static b false pr pd s sb, a => fmtIntItem D C lc ⟨b, pr, pd, s, sb⟩ a x
  | .static b true pr pd s sb, a =>
    punctIntItem D C lc ⟨b, pr, pd, s, sb⟩ (a.getD AlignFmt.dflt) (facet b).sep (facet b).grouping x
  | .dynamic b pr pd s sb pu, a => dynIntItem D C lc ⟨b, pr, pd, s, sb⟩ pu (a.getD AlignFmt.dflt) facet x

/-- format_functions.hpp 55–280: a chain of alignment functions, of which the arguments have only an alignment_format_specifier -/
def alignChain (as : List AlignCall) : Option AlignFmt := as.foldl alignStep none

/-- int.hpp 2385–2418 voidptr_printing::make_printer: the address is printed as `*hex(size_t)`, with the alignment format
of the pointer, if any. The facets are those for `const void*`. -/
def ptrItem (D : Dest Nat σ) (C : Print.Charset σ) (lc : Lettercase) (facet : Nat → Punct) (a : Option AlignFmt)
    (address : Nat) : Option (Item σ) :=
  (intChain (.hex :: (match a with | none => [] | some a => [.align (.set a.fill a.width a.align)]) ++ [.star])).map
    fun v => v.item D C lc facet ⟨false, 8, address⟩

end Strf.Format

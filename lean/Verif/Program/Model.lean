import Verif.Program.Spec
/-!
# Model: the printer of each argument of a call

Which facets each printable type asks for, with which tag, and which printer it makes: the glue between the facets pack
(Facets/Model.lean), the format specifiers (Format/*) and the printers (IntPrinter, Float, Print). `none`: it does not compile.
Overriders (printable_overrider_c) are taken to be dont_override here: see Override/Model.lean. Not modelled: the error notifiers.
-/
namespace Strf.Program
open Strf.Format
open Strf.IntPrinter (AlignFmt Punct)
open Strf.IntDigits.Spec (Lettercase)
open Strf.Print (Item Charset Calc Cs)
open Strf.Float (FloatT)
open Strf.Dest (Dest)

/-! ## get_facet<Category, Tag>(facets) -/

/-- get_facet<charset_c<U>, Tag>, detail/facets/charset.hpp 750–758 -/
def theCharset (fp : Pack) (tag : Tag) (U : CharT) : CharsetArg :=
  match Facets.getFacet dflt (.charset U) tag fp with
  | .charset _ c => c
  | _ => ⟨utfOf U, true⟩

/-- get_facet<width_calculator_c, Tag>, detail/facets/width_calculator.hpp 547–555 -/
def theCalc (fp : Pack) (tag : Tag) : Calc :=
  match Facets.getFacet dflt .widthCalc tag fp with
  | .widthCalc c => c
  | _ => .std

/-- get_facet<numpunct_c<base>, Tag>, detail/facets/numpunct.hpp 618–629 -/
def theNumpunct (fp : Pack) (tag : Tag) (base : Nat) : Numpunct.Facet :=
  match Facets.getFacet dflt (.numpunct base) tag fp with
  | .numpunct _ np => np
  | _ => Numpunct.Facet.default

/-- get_facet<lettercase_c, Tag>, detail/facets/lettercase.hpp 19–26 -/
def theCase (fp : Pack) (tag : Tag) : Lettercase :=
  match Facets.getFacet dflt .lettercase tag fp with
  | .lettercase lc => lc
  | _ => .lower

/-- get_facet<transcoding_error_notifier_c, Tag>, detail/facets/charset.hpp 93–127 -/
def theNotifier (fp : Pack) (tag : Tag) : Option Nat :=
  match Facets.getFacet dflt .notifier tag fp with
  | .notifier k => k
  | _ => none

/-- get_facet<tr_error_notifier_c, Tag>, detail/tr_printer.hpp 15–40 -/
def theTrNotifier (fp : Pack) (tag : Tag) : Option Nat :=
  match Facets.getFacet dflt .trNotifier tag fp with
  | .trNotifier k => k
  | _ => none

/-- the type `int` -/
def intTy : IntTy := ⟨.int, true⟩

/-- the tag with which an integer asks for the charset: its type, except for aligned_default_int_printer (int.hpp 1181), that
asks with `int` -/
def intCharsetTag (t : IntTy) (v : IntFmt) : Tag :=
  match v.spec, v.align with
  | .dflt, some _ => .int intTy
  | _, _ => .int t

variable {σ : Type} (D : Dest Nat σ) (T : CharT) (sg : CharT → Bool)

/-- a tuple of printers, printers_tuple.hpp 131–152 -/
def tuple (its : List (Item σ)) : Item σ where
  make p := (Print.makeAll its p).map fun r => (r.1, Print.tuplePrint D r.2)

mutual
/-- make_printer<T>(pre, facets, arg); `sg U`: the character type `U` is signed.
- integers: int.hpp 1181, 1388, 1465, 1713–1717, 1880–1883, 1990–2041: the letter case, the numpunct and the charset for the type.
- float.hpp 2236–2245, 2290–2292, 2593.
- string.hpp 609–612, 644–646, 694–701, 767–792, 1563–1565: everything with string_input_tag<S>.
- char.hpp 42–43, 61–64: with the character type of the destination if the character has a format; 301–302: the width
  calculator with that and the charset with that of the character; 173–174, 362–367: `char32_t`.
- bool.hpp 145, 160–164.
- int.hpp 2385–2425: the facets for `const void*` are packed again without constraints.
- join.hpp 214, 243: the charset with `void`.
- range.hpp 199–205, 374–380, 538–544: string_input_tag<T>.
- tr_string.hpp 244–277, 313–347: tr_string_tag<T>.
- facets_pack.hpp 48–68: `strf::pack(parentFacets, x.fp)`; 76: the facets must be constrainable. -/
def Arg.item (fp : Pack) : Arg → Option (Item σ)
  | .int t cs x => (intChain cs).map fun v =>
      v.item D ((theCharset fp (intCharsetTag t v) T).name.charset D) (theCase fp (.int t))
        (fun b => ⟨(theNumpunct fp (.int t) b).grouping, (theNumpunct fp (.int t) b).thousandsSep⟩) (t.val x)
  | .float F cs bits =>
      some ((floatChain cs).item D ((theCharset fp (.float F) T).name.charset D) (8 * T.size)
        ⟨fun F' => theCase fp (.float F'), theNumpunct fp (.float F) 10, theNumpunct fp (.float F) 16⟩ F bits)
  | .str S cs src =>
      (stringChain cs).item D ⟨theCharset fp (.string S), theCalc fp (.string S)⟩ S T (sg S) src
  | .rawChr S u =>
      if S = T then rawCharItem D ⟨theCharset fp (.char S), theCalc fp (.char T)⟩ S T (sg S) u
      else rawCharItem D ⟨theCharset fp (.char .char32), theCalc fp (.char .char32)⟩ S T (sg S) u
  | .chr S cs u =>
      if S = .char32 ∧ T ≠ .char32 then
        some ((charChain cs).item D ⟨theCharset fp (.char .char32), theCalc fp (.char .char32)⟩ S T (sg S) (sg T) u)
      else some ((charChain cs).item D ⟨theCharset fp (.char T), theCalc fp (.char T)⟩ S T (sg S) (sg T) u)
  | .bool as x => some (boolChainItem D ((theCharset fp .bool T).name.charset D) (theCase fp .bool) as x)
  | .ptr as address =>
      ptrItem D ((theCharset fp .pointer T).name.charset D) (theCase fp .pointer)
        (fun b => ⟨(theNumpunct fp .pointer b).grouping, (theNumpunct fp .pointer b).thousandsSep⟩) (alignChain as) address
  | .join args => (items fp args).map (Print.join D)
  | .alignedJoin a args => (items fp args).map (Print.alignedJoin D ((theCharset fp .void T).name.charset D) a)
  | .range args => (items fp args).map (Print.range D)
  | .separatedRange fmt sep args => (items fp args).map fun its =>
      let W := (theCalc fp (.string T)).on (sg T) (theCharset fp (.string T) T).name.cs
      if fmt then Print.fmtSeparatedRange D W sep its else Print.separatedRange D W sep its
  | .tr str args => (items fp args).map fun its =>
      let cs := (theCharset fp (.tr T) T).name.cs
      Print.trItem D ((theCalc fp (.tr T)).on (sg T) cs) (cs.repl D) str its
  | .inner fs args =>
      if allConstrainable fs then (items (Facets.childFacets fp fs) args).map (tuple D) else none
/-- printing_helpers.hpp 360–380: the printers of the arguments -/
def items (fp : Pack) : List Arg → Option (List (Item σ))
  | [] => some []
  | a :: as => (a.item fp).bind fun it => (items fp as).map fun its => it :: its
end

/-- printing_syntax.hpp 351–405 (`with`), 420–560 (the call operator), separate_args_and_print.hpp 41–86, reserve_policies.hpp
91–205: the facets given with `with` are packed with those among the arguments, and the printers are made with that pack -/
def Call.items (c : Call) : Option (List (Item σ)) :=
  Program.items D T sg (Facets.callFacets (Facets.withAll [] c.withs) c.facets) c.args

end Strf.Program

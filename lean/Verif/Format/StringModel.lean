import Verif.Format.StringSpec
import Verif.Format.Model
/-!
# Model of the format specifier classes of strings

include/strf/detail/printable_types/string.hpp 20–522, 1725–1775. See Model.lean. Sources: `transcode`, `transcode_from`,
`conv`, `convert_charset`, `convert_from_charset` are one call, and so are `sani`, `sanitize`, `sanitize_from`, `sanitize_charset`
and `sanitize_from_charset` (117–199).
-/
namespace Strf.Format
open Strf.IntPrinter (AlignFmt)
open Strf.Print (Item Cs Calc Policy Comparison How choose stringItem Charset)
open Strf.Dest (Dest)

/-- the ids of the single-byte charsets in the order of Sbc.all, facets/charset.hpp 131–158; single_byte_charsets.hpp gives
them to the classes of that name (`Impl::id`) -/
def sbcIds : List Nat := [0x9dea526b, 0xcf00a401, 0xcf00a402, 0xcf00a403, 0xcf00a404, 0xcf00a405, 0xcf00a406, 0xcf00a407,
  0xcf00a408, 0xcf00a409, 0xcf00a410, 0xcf00a411, 0xcf00a413, 0xcf00a414, 0xcf00a415, 0xcf00a416, 0x5cff7250, 0x5cff7251,
  0x5cff7252, 0x5cff7253, 0x5cff7254, 0x5cff7255, 0x5cff7256, 0x5cff7257, 0x5cff7258]

/-- charset_id, facets/charset.hpp 131–134 -/
def CsName.id : CsName → Nat
  | .utf .utf8 => 0x04650346
  | .utf .utf16 => 0x0439cb08
  | .utf .utf32 => 0x67be80a2
  | .sbc i => sbcIds.get (i.cast (by decide))

/-- string.hpp: a value_and_format of a string: string_precision_format_specifier (258–325), alignment, and
transcoding_format_specifier_q (28–225): the charset (`none`: no_charset_tag) and the policy -/
structure StringVal where
  precision : Option Int
  align : Option AlignFmt
  charset : Option CharsetArg
  policy : Policy
deriving DecidableEq, Repr

/-- string.hpp: `fmt(x)`, 1730–1733 -/
def StringVal.init : StringVal := ⟨none, none, none, .noTranscode⟩

/-- string.hpp 85–147: the functions without argument construct the new specifier from the old one, whose charset they copy
(97–116); those with an argument take the charset from it. 292–296, 311–316 p. -/
def StringVal.step (v : StringVal) : StringCall → StringVal
  | .p w => { v with precision := some w }
  | .align a => { v with align := alignStep v.align a }
  | .transcode none => { v with policy := .saniOnlyIfDifferent }
  | .transcode (some cs) => { v with policy := .saniOnlyIfDifferent, charset := some cs }
  | .sani none => { v with policy := .saniUnconditionally }
  | .sani (some cs) => { v with policy := .saniUnconditionally, charset := some cs }
  | .unchecked none => { v with policy := .unchecked }
  | .unchecked (some cs) => { v with policy := .unchecked, charset := some cs }

/-- string.hpp 20–522: `fmt(x).f().g()…` -/
def stringChain (cs : List StringCall) : StringVal := cs.foldl StringVal.step .init

/-- string.hpp 338–405 compare_charsets; `dynamic` compares the ids at run time (1553–1560, 1652–1660) -/
def compareCharsets (s d : CharsetArg) : Comparison :=
  if s.isStatic ∧ d.isStatic then
    if s.name.id = d.name.id then .equal else .different
  else if s.name.unitSize = d.name.unitSize then .dynamic (s.name.id = d.name.id) else .different

/-- the facets of strings: the charset for each character type and the width calculator -/
structure StringFacets where
  charset : CharT → CharsetArg
  widthCalc : Calc

/-- facets/charset.hpp 424–720: the facet as the printers use it -/
def CsName.charset {σ : Type} (D : Dest Nat σ) (n : CsName) : Charset σ :=
  match n.cs with
  | .utf e => Print.utf D e
  | .sbc I => Print.sbc D I

/-- string.hpp: the expression compiles: 407–423 the character types must be the same without transcoding; 1601–1604, 1694–1697 the
call operator of the variants, that are used when the charsets are compared at run time and the policy depends on it (443–470),
takes a `destination<char>`. -/
def StringVal.compiles (F : StringFacets) (S T : CharT) (v : StringVal) : Bool :=
  match v.policy, compareCharsets (v.charset.getD (F.charset S)) (F.charset T) with
  | .noTranscode, _ => decide (S = T)
  | .saniUnconditionally, _ => true
  | _, .dynamic _ => decide (T = .char)
  | _, _ => true

/-- string.hpp: the charset with which the width of the string is calculated: strcpy_printer (524–614) and
aligned_strcpy_printer (624–680) use the facet; the others (794–1400) use get_src_charset (767–792): the charset given, or else
the facet -/
def StringVal.widthCharset (F : StringFacets) (S : CharT) (v : StringVal) (how : How) : CsName :=
  match how with
  | .copy | .copyOther => (F.charset S).name
  | .transcode | .unchecked => (v.charset.getD (F.charset S)).name

/-- string.hpp 413–522: the printer chosen -/
def StringVal.how (F : StringFacets) (S T : CharT) (v : StringVal) : How :=
  choose (decide (S = T)) v.policy (compareCharsets (v.charset.getD (F.charset S)) (F.charset T))

/-- string.hpp 1736–1775 string_printing<SrcCharT>::make_printer: `S` is the character type of the string, `T` that of the
destination; `signed`: `S` is signed. find_transcoder (charset.hpp 920–1047) finds the sanitiser if the ids are the same. -/
def StringVal.item {σ : Type} (D : Dest Nat σ) (F : StringFacets) (S T : CharT) (signed : Bool) (v : StringVal)
    (src : List Nat) : Option (Item σ) :=
  if v.compiles F S T then
    let s := (v.charset.getD (F.charset S)).name
    let d := (F.charset T).name
    let how := v.how F S T
    some (stringItem (d.charset D) (F.widthCalc.on signed (v.widthCharset F S how).cs)
      (how.content D signed (s.id = d.id) s.cs d.cs) how v.align v.precision src)
  else none

end Strf.Format

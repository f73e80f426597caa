import Verif.Facets.Props
import Verif.Format.FloatProps
import Verif.Format.CharProps
import Verif.Print.Ranges
import Verif.Print.TrProps
/-!
# What a whole call means

A call `strf::to(dst).with(facets...)(args...)` has arguments of any types, with any format functions, nested in joins, ranges,
`strf::tr` and `strf::with(facets...)(args...)`. Here: the arguments, the facets, and what each argument means given the facets:
its text and its width. The facet in force for an argument is the last one written that applies to its type (C55, `Facets.InForce`).
-/
namespace Strf.Program
open Strf.Format
open Strf.IntPrinter (AlignFmt SepOk)
open Strf.IntPrinter.Spec (Layout IntVal Fmt formatted width groups times before)
open Strf.IntDigits.Spec (Lettercase)
open Strf.Print (Item Charset Meaning Calc Cs FillCount boolText total separated ssizeMax)
open Strf.Float (FloatT FloatFmt usedGroups usedPoint usedSep CastOk)
open Strf.Numpunct.Spec (Valid args)
open Strf.Dest (Dest)
open Strf.Width (wmax wmin)

/-! ## Types, categories of facets and facets -/

/-- the integer types; `long` has four or eight bytes -/
inductive IntKind
  | char | short | int | long (eight : Bool) | longLong
deriving DecidableEq, Repr

/-- an integer type -/
structure IntTy where
  kind : IntKind
  signed : Bool
deriving DecidableEq, Repr

/-- sizeof -/
def IntTy.bytes (t : IntTy) : Nat :=
  match t.kind with
  | .char => 1
  | .short => 2
  | .int => 4
  | .long eight => if eight then 8 else 4
  | .longLong => 8

/-- a value of the type -/
def IntTy.val (t : IntTy) (x : Int) : IntVal := ⟨t.signed, t.bytes, x⟩

/-- the type by which a constrained facet is selected (docs/ref_facets_pack.adoc; docs/ref_printable_types.adoc) -/
inductive Tag
  | int (t : IntTy)
  | float (T : FloatT)
  /-- `string_input_tag<S>` -/ | string (S : CharT)
  | char (S : CharT)
  | bool
  /-- `const void*` -/ | pointer
  /-- `tr_string_tag<T>` -/ | tr (T : CharT)
  | void
deriving DecidableEq, Repr

/-- the categories of facets -/
inductive Cat
  | charset (T : CharT) | widthCalc | numpunct (base : Nat) | lettercase | notifier | trNotifier
deriving DecidableEq, Repr

/-- a facet. A transcoding error notifier is a pointer to an object, or null; `k` stands for
the object; also for that of a tr-string error notifier. -/
inductive FacetArg
  | charset (T : CharT) (c : CharsetArg)
  | widthCalc (c : Calc)
  | numpunct (base : Nat) (np : Numpunct.Facet)
  | lettercase (lc : Lettercase)
  | notifier (k : Option Nat)
  | trNotifier (k : Option Nat)

/-- its category -/
def FacetArg.cat : FacetArg → Cat
  | .charset T _ => .charset T
  | .widthCalc _ => .widthCalc
  | .numpunct b _ => .numpunct b
  | .lettercase _ => .lettercase
  | .notifier _ => .notifier
  | .trNotifier _ => .trNotifier

/-- the default charset of a character type: UTF -/
def utfOf : CharT → CsName
  | .char | .char8 => .utf .utf8
  | .char16 => .utf .utf16
  | .char32 => .utf .utf32
  | .wchar four => if four then .utf .utf32 else .utf .utf16

/-- the default facet of a category (docs/ref_facets): UTF, std_width_calc, no grouping with ',' and '.', lower case, no notifier (a tr-string error
notifier that does nothing) -/
def dflt : Cat → FacetArg
  | .charset T => .charset T ⟨utfOf T, true⟩
  | .widthCalc => .widthCalc .std
  | .numpunct b => .numpunct b Numpunct.Facet.default
  | .lettercase => .lettercase .lower
  | .notifier => .notifier none
  | .trNotifier => .trNotifier none

/-- facets, packs of facets, constrained packs -/
abbrev Pack := List (Facets.Fpe Cat Tag FacetArg)

/-- The facet is the one in force for the type. -/
def Holds (fp : Pack) (tag : Tag) (v : FacetArg) : Prop := Facets.InForce dflt v.cat tag fp v

/-- The charset of each character type; charsets cannot be constrained. -/
def CharsetsAre (fp : Pack) (K : CharT → CharsetArg) : Prop := ∀ tag T, Holds fp tag (.charset T (K T))

/-- what the type system guarantees of a facet -/
def FacetArg.Typed : FacetArg → Prop
  | .charset T c => c.name.unitSize = T.size
  | _ => True

/-- charsets and transcoding error notifiers are not constrainable -/
def FacetArg.constrainable : FacetArg → Bool
  | .charset .. | .notifier _ => false
  | _ => true

mutual
/-- facets_pack.hpp 139–155, 199–200, 223–224, 250, 270 is_constrainable -/
def constrainable : Facets.Fpe Cat Tag FacetArg → Bool
  | .facet _ v => v.constrainable
  | .constrained _ _ => true
  | .ref e => constrainable e
  | .pack es => allConstrainable es
def allConstrainable : Pack → Bool
  | [] => true
  | e :: es => constrainable e && allConstrainable es
end

mutual
/-- The facets are well typed and what is constrained is constrainable (facets_pack.hpp 653); otherwise it does not compile. -/
def Typed : Facets.Fpe Cat Tag FacetArg → Prop
  | .facet c v => v.cat = c ∧ v.Typed
  | .constrained _ e => constrainable e = true ∧ Typed e
  | .ref e => Typed e
  | .pack es => AllTyped es
def AllTyped : Pack → Prop
  | [] => True
  | e :: es => Typed e ∧ AllTyped es
end

/-! ## Arguments -/

/-- an argument. `int`, `float`, `str`, `chr`: `fmt(x)` followed by the format functions (no function: `x` itself, or `fmt(x)`;
but not for characters). -/
inductive Arg
  | int (t : IntTy) (cs : List IntCall) (x : Int)
  | float (F : FloatT) (cs : List FloatCall) (bits : Nat)
  | str (S : CharT) (cs : List StringCall) (src : List Nat)
  /-- a character without format -/ | rawChr (S : CharT) (u : Nat)
  | chr (S : CharT) (cs : List CharCall) (u : Nat)
  /-- without format, or with alignment functions -/ | bool (as : Option (List AlignCall)) (x : Bool)
  | ptr (as : List AlignCall) (address : Nat)
  /-- `strf::join(args...)` -/ | join (args : List Arg)
  /-- `strf::join(args...)` with alignment functions -/ | alignedJoin (a : AlignFmt) (args : List Arg)
  /-- `strf::range(...)`, of the formatted elements -/ | range (args : List Arg)
  /-- `strf::separated_range(..., sep)`; `fmt`: `strf::fmt_separated_range` -/ | separatedRange (fmt : Bool) (sep : List Nat) (args : List Arg)
  /-- `strf::tr(str, args...)` -/ | tr (str : List Nat) (args : List Arg)
  /-- `strf::with(facets...)(args...)` -/ | inner (fs : Pack) (args : List Arg)

/-! ## What they mean -/

section
variable (T : CharT) (K : CharT → CharsetArg)

/-- a charset. (The functions of a charset that write to a destination depend on it; those that are used here do not:
`encodeChar` and `validate`.) -/
abbrev ref (n : CsName) : Charset (Dest.Maker Nat) := n.charset Dest.Maker.dest

/-- the code units of a character in the charset of the destination -/
def enc : Nat → List Nat := (ref (K T).name).encodeChar

/-- the text of a string read with the charset given last, or that of its character type -/
def strText (cs : List StringCall) (S : CharT) (x : List Nat) : List Nat :=
  textOf (policyOf cs) (charsetOf (K S) cs).name (K T).name x

/-- its width -/
def strWidth (wc : Calc) (cs : List StringCall) (S : CharT) (x : List Nat) : Int :=
  wc.columns (charsetOf (K S) cs).name.cs x * 65536

/-- the character sets and the width calculator, as C69 and C70 call them -/
def stringFacets (wc : Calc) : StringFacets := ⟨K, wc⟩

/-- the layout asked for by alignment functions: `columns` is the width rounded to an integer -/
structure LaidOut (as : List AlignCall) (lay : Layout) : Prop where
  fill : lay.fill = fillOf as
  align : lay.align = alignOf as
  range : CInt.InI32 (widthOf as)
  columns : WidthSpec.IsRound (widthOf as) lay.columns

/-- The conditions of C66 on an integer with format functions. -/
structure IntOk (t : IntTy) (cs : List IntCall) (np : Numpunct.Facet) (gs : List Nat) (rep : Bool) (x : Int) : Prop where
  compiles : (intChain cs).isSome
  keeps : KeepsOptions cs
  sign : ¬ SignOnly cs
  precision : (intOptions cs).precision ≤ 2147483582
  pad0 : (intOptions cs).pad0 ≤ 2147483647
  valid : Valid gs rep
  grouping : if punctuated cs then np.grouping = Numpunct.ctor2 (args gs rep) else gs = [] ∧ rep = false
  value : (t.val x).Ok
  sep : SepOk (ref (K T).name) np.thousandsSep (groups gs rep (usedOptions cs) (t.val x)).length
  bin : (usedOptions cs).base ≠ 2 ∨ (enc T K np.thousandsSep).length ≠ 1 ∨
    (groups gs rep (usedOptions cs) (t.val x)).length = 1

/-- The conditions of C69 on a string with format functions; `x` is what is kept of it. -/
structure StrOk (wc : Calc) (S : CharT) (cs : List StringCall) (src x : List Nat) : Prop where
  compiles : (stringChain cs).compiles (stringFacets K wc) S T = true
  units : S.Units src
  given : (charsetOf (K S) cs).name.unitSize = S.size
  fast : wc = .fastU32len → (charsetOf (K S) cs).name.cs.WellFormed src
  std : wc = .std → precisionOf cs = none
  precision : ∀ p, precisionOf cs = some p → p ≤ wmax
  align : CInt.InI32 (stringAlign cs).width
  charset : WidthCharsetOk (stringFacets K wc) S T cs
  kept : KeptOf wc (charsetOf (K S) cs).name.cs (precisionOf cs) src x
  wellFormed : policyOf cs = .unchecked → (charsetOf (K S) cs).name.cs.WellFormed x
  size : (strText T K cs S x).length < ssizeMax

/-- The conditions of C68 on a floating-point number with format functions. -/
structure FloatOk (F : FloatT) (cs : List FloatCall) (np : Numpunct.Facet) (gs : List Nat) (rep : Bool) (bits : Nat) : Prop where
  valid : Valid gs rep
  grouping : np.grouping = Numpunct.ctor2 (args gs rep)
  cast : (floatOptions cs).punctuate = true → CastOk (ref (K T).name) (8 * T.size) np.thousandsSep
  round : RoundOk (usedGroups (ref (K T).name) np (floatOptions cs) gs rep).1
    (usedGroups (ref (K T).name) np (floatOptions cs) gs rep).2 (floatOptions cs) F bits

mutual
/-- What an argument means, with the facets `fp`. `B` is the greatest width of interest to what surrounds it. -/
inductive Denotes : Pack → Int → Arg → Meaning → Prop
  | int {fp B t cs x} (lay : Layout) (lc : Lettercase) (np : Numpunct.Facet) (gs : List Nat) (rep : Bool) :
    LaidOut (alignCalls cs) lay → Holds fp (.int t) (.lettercase lc) →
    Holds fp (.int t) (.numpunct (usedOptions cs).base np) → IntOk T K t cs np gs rep x →
    Denotes fp B (.int t cs x)
      (.ofColumns (formatted (enc T K) lc (enc T K np.thousandsSep) gs rep (usedOptions cs) lay (t.val x))
        (width gs rep (usedOptions cs) lay (t.val x)))
  | float {fp B F cs bits} (lay : Layout) (lc : Lettercase) (np np16 : Numpunct.Facet) (gs : List Nat) (rep : Bool) :
    LaidOut (floatAlignCalls cs) lay → Holds fp (.float F) (.lettercase lc) →
    (floatOptions cs = ⟨-1, 0, .general, .negativeOnly, false, false⟩ → Holds fp (.float .float) (.lettercase lc)) →
    Holds fp (.float F) (.numpunct 10 np) → Holds fp (.float F) (.numpunct 16 np16) → FloatOk T K F cs np gs rep bits →
    Denotes fp B (.float F cs bits)
      (.ofColumns (floatText (enc T K) lc (usedPoint np (floatOptions cs)) (usedPoint np16 (floatOptions cs))
        (usedSep np (floatOptions cs)) (usedGroups (ref (K T).name) np (floatOptions cs) gs rep).1
        (usedGroups (ref (K T).name) np (floatOptions cs) gs rep).2 (floatOptions cs) lay F bits)
        (floatWidth (usedGroups (ref (K T).name) np (floatOptions cs) gs rep).1
          (usedGroups (ref (K T).name) np (floatOptions cs) gs rep).2 (floatOptions cs) lay F bits))
  | str {fp B S cs src} (wc : Calc) (x : List Nat) (n : Nat) :
    Holds fp (.string S) (.widthCalc wc) → StrOk T K wc S cs src x →
    FillCount (stringAlign cs).width (strWidth K wc cs S x) n →
    Denotes fp B (.str S cs src)
      (stringMeaning (enc T K) (stringAlign cs) (precisionOf cs).isSome n (strText T K cs S x) (strWidth K wc cs S x))
  | rawChr {fp B S u} (wc : Calc) :
    Holds fp (.char S) (.widthCalc wc) → S = T ∨ S = .char32 → S.Units [u] →
    Denotes fp B (.rawChr S u)
      (charMeaning (enc T K) AlignFmt.dflt 0 1 (charUnits (enc T K) S T u)
        (wc.columns (charCs (stringFacets K wc) S T) [u] * 65536))
  | chr {fp B S cs u} (wc : Calc) (n : Nat) :
    Holds fp (.char S) (.widthCalc wc) → S = T ∨ S = .char32 → S.Units [u] → countOf cs < 2 ^ 63 →
    wmin ≤ (charAlign cs).width ∧ (charAlign cs).width ≤ 2147450880 →
    FillCount (charAlign cs).width (min wmax (wc.columns (charCs (stringFacets K wc) S T) [u] * 65536 * countOf cs)) n →
    Denotes fp B (.chr S cs u)
      (charMeaning (enc T K) (charAlign cs) n (countOf cs) (charUnits (enc T K) S T u)
        (wc.columns (charCs (stringFacets K wc) S T) [u] * 65536))
  | rawBool {fp B x} (lc : Lettercase) : Holds fp .bool (.lettercase lc) →
    Denotes fp B (.bool none x) (.ofColumns (boolText lc x) (boolText lc x).length)
  | bool {fp B as x} (lay : Layout) (lc : Lettercase) (n : Nat) : LaidOut as lay → Holds fp .bool (.lettercase lc) →
    n = (lay.columns - (boolText lc x).length).toNat →
    Denotes fp B (.bool (some as) x) (.ofColumns (times (enc T K) (before (alignOf as) n) (fillOf as) ++ boolText lc x ++
        times (enc T K) (n - before (alignOf as) n) (fillOf as)) ((boolText lc x).length + n))
  | ptr {fp B as address} (lay : Layout) (lc : Lettercase) (n : Nat) : LaidOut as lay → Holds fp .pointer (.lettercase lc) →
    address < 2 ^ 64 → n = (lay.columns - (pointerText lc address).length).toNat →
    Denotes fp B (.ptr as address) (.ofColumns (times (enc T K) (before (alignOf as) n) (fillOf as) ++ pointerText lc address ++
        times (enc T K) (n - before (alignOf as) n) (fillOf as)) ((pointerText lc address).length + n))
  | join {fp B args ms} : DenoteAll fp B args ms → Denotes fp B (.join args) (total ms)
  | alignedJoin {fp B args a ms} (n : Nat) : 0 ≤ a.width → a.width ≤ wmax → DenoteAll fp (max B a.width) args ms →
    (total ms).room ≤ wmax ∨ max B a.width + (total ms).cost ≤ wmax → FillCount a.width (total ms).width n →
    max B a.width + n * 65536 ≤ wmax → B + min (total ms).width (max B a.width + (total ms).cost) - a.width ≤ wmax →
    Denotes fp B (.alignedJoin a args) ((total ms).pad (enc T K) a n)
  | range {fp B args ms} : DenoteAll fp B args ms → Denotes fp B (.range args) (total ms)
  | separatedRange {fp B fmt sep args ms} (wc : Calc) : Holds fp (.string T) (.widthCalc wc) → T.Units sep →
    (wc = .fastU32len → (K T).name.cs.WellFormed sep) → ms.length < 2 ^ 64 → DenoteAll fp B args ms →
    Denotes fp B (.separatedRange fmt sep args) (separated sep (wc.columns (K T).name.cs sep * 65536) ms)
  | tr {fp B str args ms segs} (wc : Calc) : Holds fp (.tr T) (.widthCalc wc) → Tr.Reads 0 str segs →
    (∀ run, Tr.Piece.text run ∈ Tr.pieces 0 [] segs → wc.Ok (K T).name.cs run) → DenoteAll fp wmax args ms →
    (∀ m ∈ ms, m.room ≤ wmax) →
    Denotes fp B (.tr str args) (.tr (fun run => wc.columns (K T).name.cs run * 65536) 65535 (K T).name.cs.replacement ms segs)
  | inner {fp B fs args ms} : AllTyped fs → allConstrainable fs = true → DenoteAll (fp ++ fs) B args ms →
    Denotes fp B (.inner fs args) (total ms)
/-- the arguments, one by one -/
inductive DenoteAll : Pack → Int → List Arg → List Meaning → Prop
  | nil {fp B} : DenoteAll fp B [] []
  | cons {fp B arg args m ms} : Denotes fp B arg m → DenoteAll fp B args ms → DenoteAll fp B (arg :: args) (m :: ms)
end

/-! ## Calls -/

/-- `destination.with(withs[0]...).with(withs[1]...)…(facets..., args...)`, and `.line` instead of the call operator if `eol`.
(The facets among the arguments come before the others, or it does not compile: separate_args_and_print.hpp 41–94.) -/
structure Call where
  withs : List Pack
  facets : Pack
  args : List Arg
  eol : Bool

/-- all the facets, in the order in which they are written -/
def Call.pack (c : Call) : Pack := c.withs.flatten ++ c.facets

/-- What the arguments of the call mean, with a destination of character type `T`; `B`: the greatest width of interest. -/
def Call.Means (T : CharT) (B : Int) (c : Call) (ms : List Meaning) : Prop :=
  AllTyped c.pack ∧ ∃ K, CharsetsAre c.pack K ∧ DenoteAll T K c.pack B c.args ms

/-- the text that the call is to print -/
def Call.text (c : Call) (ms : List Meaning) : List Nat := (total ms).text ++ if c.eol then [0x0A] else []
end

end Strf.Program

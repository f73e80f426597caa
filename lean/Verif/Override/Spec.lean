import Verif.Program.CallProps
/-!
# Calls with printable types of the user's, and with overriders

A user of strf can make types printable (docs/howto_add_printable_types.adoc) and give facets that change how existing types are printed
(docs/howto_override_printable_types.adoc). Both are classes with functions `make_printer`, which return a printer of their own, or call `strf::make_printer` with
other facets and another argument. Here: the arguments, facets and classes of such a program, and what its calls mean.
-/
namespace Strf.Override
open Strf.Format
open Strf.IntPrinter (AlignFmt)
open Strf.Program (IntTy Tag Cat FacetArg Pack Arg Holds CharsetsAre Typed AllTyped constrainable allConstrainable enc)
open Strf.Print (Item Meaning Calc FillCount total separated)
open Strf.Float (FloatT)
open Strf.Dest (Dest)
open Strf.Width (wmax)

/-! ## The program -/

/-- the types: those of strf, and those of the user, numbered -/
inductive UTag
  | std (t : Tag)
  | user (n : Nat)
deriving DecidableEq, Repr

/-- the categories: those of strf, and `printable_overrider_c<type>` -/
inductive UCat
  | std (c : Cat)
  | overrider (type : UTag)
deriving DecidableEq, Repr

/-- a facet: one of strf, `dont_override<type>`, or an object of a class of the user's of the category `printable_overrider_c<type>` -/
inductive UFacet (ω : Type)
  | std (v : FacetArg)
  | dontOverride (type : UTag)
  | overrider (type : UTag) (o : ω)

abbrev UPack (ω : Type) := List (Facets.Fpe UCat UTag (UFacet ω))

/-- a value of a type of strf that consists of no other arguments, with its format functions -/
inductive Leaf
  | int (t : IntTy) (cs : List IntCall) (x : Int)
  | float (F : FloatT) (cs : List FloatCall) (bits : Nat)
  | str (S : CharT) (cs : List StringCall) (src : List Nat)
  | rawChr (S : CharT) (u : Nat)
  | chr (S : CharT) (cs : List CharCall) (u : Nat)
  | bool (as : Option (List AlignCall)) (x : Bool)
  | ptr (as : List AlignCall) (address : Nat)

/-- that argument -/
def Leaf.arg : Leaf → Arg
  | .int t cs x => .int t cs x
  | .float F cs bits => .float F cs bits
  | .str S cs src => .str S cs src
  | .rawChr S u => .rawChr S u
  | .chr S cs u => .chr S cs u
  | .bool as x => .bool as x
  | .ptr as address => .ptr as address

/-- an argument; `υ`: the values, with their formats, of the types of the user's -/
inductive UArg (ω υ : Type)
  | leaf (l : Leaf)
  | user (u : υ)
  | join (args : List (UArg ω υ))
  | alignedJoin (a : AlignFmt) (args : List (UArg ω υ))
  | range (args : List (UArg ω υ))
  | separatedRange (fmt : Bool) (sep : List Nat) (args : List (UArg ω υ))
  | tr (str : List Nat) (args : List (UArg ω υ))
  | inner (fs : UPack ω) (args : List (UArg ω υ))

/-- what a function `make_printer` of the user's does: it returns `strf::make_printer<CharT>(pre, facets, arg)`, or a printer of its own -/
inductive Body (ω υ π : Type)
  | arg (facets : UPack ω) (a : UArg ω υ)
  | printer (p : π)

/-- the classes of the user's: `ω` are the overriders, `υ` the values of printable types, `π` the printers -/
structure Classes (ω υ π : Type) where
  /-- the type of the value -/
  type : υ → Nat
  /-- docs/ref_printable_types_requirements.adoc: `PrintableDef::is_overridable` -/
  overridable : υ → Bool
  /-- `PrintableDef::make_printer(tag<CharT>, pre, facets, x)`; `none`: it does not compile -/
  define : υ → CharT → UPack ω → Option (Body ω υ π)
  /-- `overrider.make_printer(tag<CharT>, pre, facets, x)`, of an overrider of a type of strf -/
  override : ω → CharT → UPack ω → Leaf → Option (Body ω υ π)
  /-- the same, of a type of the user's -/
  overrideUser : ω → CharT → UPack ω → υ → Option (Body ω υ π)
  /-- the printers: what they add to the premeasurements and write -/
  printer : {σ : Type} → Dest Nat σ → π → Item σ

/-- a call -/
structure UCall (ω υ : Type) where
  withs : List (UPack ω)
  facets : UPack ω
  args : List (UArg ω υ)
  eol : Bool

/-! ## The facets -/

variable {ω υ π : Type}

/-- its category -/
def UFacet.cat : UFacet ω → UCat
  | .std v => .std v.cat
  | .dontOverride t => .overrider t
  | .overrider t _ => .overrider t

/-- the default facet of a category -/
def udflt : UCat → UFacet ω
  | .std c => .std (Program.dflt c)
  | .overrider t => .dontOverride t

/-- The facet is the one in force for the type (C55): the last one written that applies to it. -/
def UHolds (fp : UPack ω) (tag : UTag) (v : UFacet ω) : Prop := Facets.InForce udflt v.cat tag fp v

mutual
/-- the facets of strf among them -/
def std : Facets.Fpe UCat UTag (UFacet ω) → Facets.Fpe Cat Tag FacetArg
  | .facet (.std c) (.std v) => .facet c v
  | .facet _ _ => .pack []
  | .constrained f e => .constrained (fun t => f (.std t)) (std e)
  | .ref e => .ref (std e)
  | .pack es => .pack (stdAll es)
def stdAll : UPack ω → Pack
  | [] => []
  | e :: es => std e :: stdAll es
end

mutual
/-- The facets are well typed; the category of overriders is constrainable. -/
def UTyped : Facets.Fpe UCat UTag (UFacet ω) → Prop
  | .facet c v => v.cat = c ∧ ∀ w, v = .std w → w.Typed
  | .constrained _ e => constrainable (std e) = true ∧ UTyped e
  | .ref e => UTyped e
  | .pack es => UAllTyped es
def UAllTyped : UPack ω → Prop
  | [] => True
  | e :: es => UTyped e ∧ UAllTyped es
end

/-! ## What the arguments mean -/

/-- the type of a value of a type of strf, and whether it can be overridden: floating-point numbers, booleans and pointers can be (docs/howto_override_printable_types.adoc) -/
def Leaf.tag : Leaf → Tag
  | .int t _ _ => .int t
  | .float F _ _ => .float F
  | .str S _ _ => .string S
  | .rawChr S _ => .char S
  | .chr S _ _ => .char S
  | .bool _ _ => .bool
  | .ptr _ _ => .pointer

def Leaf.Overridable : Leaf → Prop
  | .float .. | .bool .. | .ptr .. => True
  | _ => False

/-- The overrider in force for the type. -/
def Overrides (fp : UPack ω) (tag : UTag) (o : ω) : Prop := UHolds fp tag (.overrider tag o)

/-- There is none, or the last one written is `dont_override`. -/
def NotOverridden (fp : UPack ω) (tag : UTag) : Prop := UHolds fp tag (.dontOverride tag)

section
variable (T : CharT) (cl : Classes ω υ π) (M : π → Int → Meaning → Prop)

mutual
/-- What an argument means with the facets `fp`. `M`: what the printers of the user's mean. `K`: the charsets. -/
inductive UDenotes : (CharT → CharsetArg) → UPack ω → Int → UArg ω υ → Meaning → Prop
  /-- a value of a type of strf is printed as strf does (C73), if its type cannot be overridden, or is not -/
  | leaf {K fp B l m} : ¬ l.Overridable ∨ NotOverridden fp (.std l.tag) → Program.Denotes T K (stdAll fp) B l.arg m →
    UDenotes K fp B (.leaf l) m
  /-- otherwise as the overrider in force says -/
  | overridden {K fp B l m b} (o : ω) : l.Overridable → Overrides fp (.std l.tag) o → cl.override o T fp l = some b →
    BodyDenotes B b m → UDenotes K fp B (.leaf l) m
  /-- a value of a type of the user's is printed as its definition says, -/
  | user {K fp B u m b} : cl.overridable u = false ∨ NotOverridden fp (.user (cl.type u)) → cl.define u T fp = some b →
    BodyDenotes B b m → UDenotes K fp B (.user u) m
  /-- or as the overrider says -/
  | userOverridden {K fp B u m b} (o : ω) : cl.overridable u = true → Overrides fp (.user (cl.type u)) o →
    cl.overrideUser o T fp u = some b → BodyDenotes B b m → UDenotes K fp B (.user u) m
  /-- and the others as in C73 -/
  | join {K fp B args ms} : UDenoteAll K fp B args ms → UDenotes K fp B (.join args) (total ms)
  | alignedJoin {K fp B args a ms} (n : Nat) : 0 ≤ a.width → a.width ≤ wmax → UDenoteAll K fp (max B a.width) args ms →
    (total ms).room ≤ wmax ∨ max B a.width + (total ms).cost ≤ wmax → FillCount a.width (total ms).width n →
    max B a.width + n * 65536 ≤ wmax → B + min (total ms).width (max B a.width + (total ms).cost) - a.width ≤ wmax →
    UDenotes K fp B (.alignedJoin a args) ((total ms).pad (enc T K) a n)
  | range {K fp B args ms} : UDenoteAll K fp B args ms → UDenotes K fp B (.range args) (total ms)
  | separatedRange {K fp B fmt sep args ms} (wc : Calc) : Holds (stdAll fp) (.string T) (.widthCalc wc) → T.Units sep →
    (wc = .fastU32len → (K T).name.cs.WellFormed sep) → ms.length < 2 ^ 64 → UDenoteAll K fp B args ms →
    UDenotes K fp B (.separatedRange fmt sep args) (separated sep (wc.columns (K T).name.cs sep * 65536) ms)
  | tr {K fp B str args ms segs} (wc : Calc) : Holds (stdAll fp) (.tr T) (.widthCalc wc) → Tr.Reads 0 str segs →
    (∀ run, Tr.Piece.text run ∈ Tr.pieces 0 [] segs → wc.Ok (K T).name.cs run) → UDenoteAll K fp wmax args ms →
    (∀ m ∈ ms, m.room ≤ wmax) →
    UDenotes K fp B (.tr str args) (.tr (fun run => wc.columns (K T).name.cs run * 65536) 65535 (K T).name.cs.replacement ms segs)
  | inner {K fp B fs args ms} : UAllTyped fs → allConstrainable (stdAll fs) = true →
    UDenoteAll K [.pack fp, .pack fs] B args ms → UDenotes K fp B (.inner fs args) (total ms)
/-- what the user's function returns; with the facets it gives, that may be others -/
inductive BodyDenotes : Int → Body ω υ π → Meaning → Prop
  | arg {K fp B a m} : UAllTyped fp → CharsetsAre (stdAll fp) K → UDenotes K fp B a m → BodyDenotes B (.arg fp a) m
  | printer {B p m} : M p B m → BodyDenotes B (.printer p) m
/-- the arguments, one by one -/
inductive UDenoteAll : (CharT → CharsetArg) → UPack ω → Int → List (UArg ω υ) → List Meaning → Prop
  | nil {K fp B} : UDenoteAll K fp B [] []
  | cons {K fp B arg args m ms} : UDenotes K fp B arg m → UDenoteAll K fp B args ms → UDenoteAll K fp B (arg :: args) (m :: ms)
end
end

/-- all the facets: those given with `with`, then those among the arguments -/
def UCall.pack (c : UCall ω υ) : UPack ω := .pack c.withs.flatten :: c.facets

/-- What the arguments of the call mean. -/
def UCall.Means (T : CharT) (cl : Classes ω υ π) (M : π → Int → Meaning → Prop) (B : Int) (c : UCall ω υ) (ms : List Meaning) : Prop :=
  UAllTyped c.pack ∧ ∃ K, CharsetsAre (stdAll c.pack) K ∧ UDenoteAll T cl M K c.pack B c.args ms

/-- the text that the call is to print -/
def UCall.text (c : UCall ω υ) (ms : List Meaning) : List Nat := (total ms).text ++ if c.eol then [0x0A] else []

end Strf.Override

import Verif.Override.CallProps
/-!
# Classes with `print`

docs/howto_add_printable_types.adoc "print instead of make_printer": the class that prints the values of a type — its `printable_def`, or an overrider — can have a
function `print(dst, facets, x)` in the place of `make_printer`, or besides. Then the values can be printed, but not measured. Here: such classes, and what calls with
them say. (Classes with `make_printer` only: C90.)
-/
namespace Strf.Direct
open Strf.Format
open Strf.IntPrinter (AlignFmt)
open Strf.Program (Holds CharsetsAre allConstrainable enc)
open Strf.Print (Meaning Calc FillCount total separated)
open Strf.Dest (Dest)
open Strf.Width (wmax)
open Strf.Override

/-- what a function `print` of the user's does: `to(dst).with(facets)(args...)`, or something of its own with the destination -/
inductive PBody (ω υ ρ : Type)
  | call (facets : UPack ω) (args : List (UArg ω υ))
  | own (r : ρ)

/-- the classes of the user's: as in C90, and their functions `print`; `none`: there is no such function. `ρ`: what they do of their own. -/
structure PClasses (ω υ π ρ : Type) extends Classes ω υ π where
  /-- `PrintableDef::print(dst, facets, x)` -/
  printDef : υ → CharT → UPack ω → Option (PBody ω υ ρ)
  /-- `overrider.print(dst, facets, x)`, of an overrider of a type of strf -/
  printOver : ω → CharT → UPack ω → Leaf → Option (PBody ω υ ρ)
  /-- the same, of a type of the user's -/
  printOverUser : ω → CharT → UPack ω → υ → Option (PBody ω υ ρ)
  /-- what is done with the destination -/
  own : {σ : Type} → Dest Nat σ → ρ → σ → Option σ

/-- How an argument is printed if nothing is premeasured. -/
inductive How
  /-- an argument of a call, or of a join, or an element of a range: `print` is called if there is one, otherwise `make_printer` -/
  | direct
  /-- an argument of `tr`: `make_printer` is called if there is one, otherwise `print` -/
  | tr
  /-- an argument of `strf::with(…)(…)`, of `strf::tr(…)`, or of `strf::make_printer`: only `make_printer` will do -/
  | printer
deriving DecidableEq, Repr

/-- Which of two functions is called: `make` is there, `print` is there. -/
inductive How.Calls : How → (make print : Bool) → (calls : Bool) → Prop
  | direct {make} : Calls .direct make true true
  | instead : Calls .direct true false false
  | tr {print} : Calls .tr true print false
  | trInstead : Calls .tr false true true
  | printer {print} : Calls .printer true print false

variable {ω υ π ρ : Type}

section
variable (T : CharT) (cl : PClasses ω υ π ρ) (M : π → Int → Meaning → Prop) (W : ρ → List Nat → Prop)

mutual
/-- The text that an argument says with the facets `fp`, in a call where nothing is premeasured. `M`: what the printers of the user's mean; `W`: what the user's functions
write. `K`: the charsets. -/
inductive Says : How → (CharT → CharsetArg) → UPack ω → UArg ω υ → List Nat → Prop
  /-- a value of a type of strf: what it means (C73), if its type cannot be overridden, or is not -/
  | leaf {h K fp l m} (B : Int) : ¬ l.Overridable ∨ NotOverridden fp (.std l.tag) → Program.Denotes T K (stdAll fp) B l.arg m → Says h K fp (.leaf l) m.text
  /-- otherwise what the overrider in force says -/
  | overridden {h K fp l t} (o : ω) : l.Overridable → Overrides fp (.std l.tag) o → ClassSays h (cl.override o T fp l) (cl.printOver o T fp l) t → Says h K fp (.leaf l) t
  /-- a value of a type of the user's: what the definition says, or the overrider -/
  | user {h K fp u t} : cl.overridable u = false ∨ NotOverridden fp (.user (cl.type u)) → ClassSays h (cl.define u T fp) (cl.printDef u T fp) t → Says h K fp (.user u) t
  | userOverridden {h K fp u t} (o : ω) : cl.overridable u = true → Overrides fp (.user (cl.type u)) o →
    ClassSays h (cl.overrideUser o T fp u) (cl.printOverUser o T fp u) t → Says h K fp (.user u) t
  /-- joins and ranges: one after the other, perhaps with separators -/
  | join {h K fp args ts} : SayAll .direct K fp args ts → Says h K fp (.join args) ts.flatten
  | range {h K fp args ts} : SayAll .direct K fp args ts → Says h K fp (.range args) ts.flatten
  | separatedRange {h K fp fmt sep args ts} : SayAll .direct K fp args ts → Says h K fp (.separatedRange fmt sep args) (sep.intercalate ts)
  /-- aligned joins, whose arguments are measured: the text, filled up to the width -/
  | alignedJoin {h K fp args a ms} (n : Nat) (B : Int) : 0 ≤ a.width → a.width ≤ wmax → a.width ≤ B → MeanAll K fp B args ms →
    (total ms).room ≤ wmax ∨ a.width + (total ms).cost ≤ wmax → FillCount a.width (total ms).width n → a.width + n * 65536 ≤ wmax →
    Says h K fp (.alignedJoin a args) (Print.padded (enc T K) a n (total ms).text)
  /-- tr-strings: the directives replaced -/
  | tr {h K fp str args ts segs} : Tr.Reads 0 str segs → SayAll .printer K fp args ts → Says h K fp (.tr str args) (Tr.expand ts (K T).name.cs.replacement 0 segs)
  /-- `strf::with(fs...)(args...)` -/
  | inner {h K fp fs args ts} : UAllTyped fs → allConstrainable (stdAll fs) = true → SayAll .printer K [.pack fp, .pack fs] args ts → Says h K fp (.inner fs args) ts.flatten
/-- what a class says with its functions `make_printer` and `print`, if it has them -/
inductive ClassSays : How → Option (Body ω υ π) → Option (PBody ω υ ρ) → List Nat → Prop
  /-- `make_printer` is called; it calls `strf::make_printer` in turn, or returns a printer of its own -/
  | makeArg {h pr K fp a t} : h.Calls true pr.isSome false → UAllTyped fp → CharsetsAre (stdAll fp) K → Says .printer K fp a t → ClassSays h (some (.arg fp a)) pr t
  | makePrinter {h pr p m} (B : Int) : h.Calls true pr.isSome false → M p B m → ClassSays h (some (.printer p)) pr m.text
  /-- `print` is called; it prints other arguments, or does something of its own -/
  | printCall {h mk K fp args ts} : h.Calls mk.isSome true true → UAllTyped fp → CharsetsAre (stdAll fp) K → SayAll .direct K [.pack fp] args ts →
    ClassSays h mk (some (.call fp args)) ts.flatten
  | printOwn {h mk r t} : h.Calls mk.isSome true true → W r t → ClassSays h mk (some (.own r)) t
/-- the arguments, one by one -/
inductive SayAll : How → (CharT → CharsetArg) → UPack ω → List (UArg ω υ) → List (List Nat) → Prop
  | nil {h K fp} : SayAll h K fp [] []
  | cons {h K fp arg args t ts} : Says h K fp arg t → SayAll h K fp args ts → SayAll h K fp (arg :: args) (t :: ts)
/-- What an argument means where it is measured: as in C90, the classes must have `make_printer`. The elements of ranges are measured with `make_printer`, and then printed
directly: that must give the same text. -/
inductive Means : (CharT → CharsetArg) → UPack ω → Int → UArg ω υ → Meaning → Prop
  | leaf {K fp B l m} : ¬ l.Overridable ∨ NotOverridden fp (.std l.tag) → Program.Denotes T K (stdAll fp) B l.arg m → Means K fp B (.leaf l) m
  | overridden {K fp B l m b} (o : ω) : l.Overridable → Overrides fp (.std l.tag) o → cl.override o T fp l = some b → BodyMeans B b m → Means K fp B (.leaf l) m
  | user {K fp B u m b} : cl.overridable u = false ∨ NotOverridden fp (.user (cl.type u)) → cl.define u T fp = some b → BodyMeans B b m → Means K fp B (.user u) m
  | userOverridden {K fp B u m b} (o : ω) : cl.overridable u = true → Overrides fp (.user (cl.type u)) o → cl.overrideUser o T fp u = some b → BodyMeans B b m →
    Means K fp B (.user u) m
  | join {K fp B args ms} : MeanAll K fp B args ms → Means K fp B (.join args) (total ms)
  | alignedJoin {K fp B args a ms} (n : Nat) : 0 ≤ a.width → a.width ≤ wmax → MeanAll K fp (max B a.width) args ms →
    (total ms).room ≤ wmax ∨ max B a.width + (total ms).cost ≤ wmax → FillCount a.width (total ms).width n →
    max B a.width + n * 65536 ≤ wmax → B + min (total ms).width (max B a.width + (total ms).cost) - a.width ≤ wmax →
    Means K fp B (.alignedJoin a args) ((total ms).pad (enc T K) a n)
  | range {K fp B args ms} : MeanAll K fp B args ms → SayAll .direct K fp args (ms.map (·.text)) → Means K fp B (.range args) (total ms)
  | separatedRange {K fp B fmt sep args ms} (wc : Calc) : Holds (stdAll fp) (.string T) (.widthCalc wc) → T.Units sep →
    (wc = .fastU32len → (K T).name.cs.WellFormed sep) → ms.length < 2 ^ 64 → MeanAll K fp B args ms → SayAll .direct K fp args (ms.map (·.text)) →
    Means K fp B (.separatedRange fmt sep args) (separated sep (wc.columns (K T).name.cs sep * 65536) ms)
  | tr {K fp B str args ms segs} (wc : Calc) : Holds (stdAll fp) (.tr T) (.widthCalc wc) → Tr.Reads 0 str segs →
    (∀ run, Tr.Piece.text run ∈ Tr.pieces 0 [] segs → wc.Ok (K T).name.cs run) → MeanAll K fp wmax args ms → (∀ m ∈ ms, m.room ≤ wmax) →
    Means K fp B (.tr str args) (.tr (fun run => wc.columns (K T).name.cs run * 65536) 65535 (K T).name.cs.replacement ms segs)
  | inner {K fp B fs args ms} : UAllTyped fs → allConstrainable (stdAll fs) = true → MeanAll K [.pack fp, .pack fs] B args ms → Means K fp B (.inner fs args) (total ms)
inductive BodyMeans : Int → Body ω υ π → Meaning → Prop
  | arg {K fp B a m} : UAllTyped fp → CharsetsAre (stdAll fp) K → Means K fp B a m → BodyMeans B (.arg fp a) m
  | printer {B p m} : M p B m → BodyMeans B (.printer p) m
inductive MeanAll : (CharT → CharsetArg) → UPack ω → Int → List (UArg ω υ) → List Meaning → Prop
  | nil {K fp B} : MeanAll K fp B [] []
  | cons {K fp B arg args m ms} : Means K fp B arg m → MeanAll K fp B args ms → MeanAll K fp B (arg :: args) (m :: ms)
end
end

/-- What the arguments of a call say, if nothing is premeasured. -/
def CallSays (T : CharT) (cl : PClasses ω υ π ρ) (M : π → Int → Meaning → Prop) (W : ρ → List Nat → Prop) (c : UCall ω υ) (ts : List (List Nat)) : Prop :=
  UAllTyped c.pack ∧ ∃ K, CharsetsAre (stdAll c.pack) K ∧ SayAll T cl M W .direct K c.pack c.args ts

/-- What they mean, if they are measured. -/
def CallMeans (T : CharT) (cl : PClasses ω υ π ρ) (M : π → Int → Meaning → Prop) (W : ρ → List Nat → Prop) (B : Int) (c : UCall ω υ) (ms : List Meaning) : Prop :=
  UAllTyped c.pack ∧ ∃ K, CharsetsAre (stdAll c.pack) K ∧ MeanAll T cl M W K c.pack B c.args ms

/-- the text that the call is to print -/
def said (c : UCall ω υ) (ts : List (List Nat)) : List Nat := ts.flatten ++ if c.eol then [0x0A] else []

end Strf.Direct

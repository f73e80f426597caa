import Verif.Program.Spec
import Verif.Transcode.NotesSpec
/-!
# What the transcoding error notifier must be told while a call is carried out

docs: the facet `transcoding_error_notifier`. It is told of the ill-formed sequences of the strings that are transcoded, and of their
characters that the charset of the destination lacks.
-/
namespace Strf.Told
open Strf.Format
open Strf.Print (Policy)
open Strf.Program (Arg Pack Holds)
open Strf.Transcode (Marks Spared notes Mark)
open Strf.Charset (Event)
open Strf.Facets (writtenAll)

/-- the string is transcoded: the policy given last asks for it, or for it if the charsets differ, which they do -/
def Transcodes (K : CharT → CharsetArg) (T S : CharT) (cs : List StringCall) : Prop :=
  policyOf cs = .saniUnconditionally ∨ policyOf cs = .saniOnlyIfDifferent ∧ (charsetOf (K S) cs).name ≠ (K T).name

/-- What the references of a tr-string (docs: tr_string.adoc; Print/TrSpec.lean) refer to, in their order. `k` is the number of non
positional references so far. -/
def atReferences {α : Type} (args : List (List α)) : Nat → List Tr.Seg → List α
  | _, [] => []
  | k, .next _ :: segs => args.getD k [] ++ atReferences args (k + 1) segs
  | k, .at i _ :: segs => args.getD i [] ++ atReferences args k segs
  | k, _ :: segs => atReferences args k segs

mutual
/-- What the notifier `k` is to be told for an argument, with the facets `fp`: nothing, except for strings. (`Spared`: the string has none of the
characters for which the tables of the charset of the destination are wrong.) -/
inductive Heard (T : CharT) (K : CharT → CharsetArg) (k : Nat) : Pack → Arg → List Event → Prop
  | int {fp t cs x} : Heard T K k fp (.int t cs x) []
  | float {fp F cs bits} : Heard T K k fp (.float F cs bits) []
  /-- a string for whose type the notifier in force, if any, is another one -/
  | other {fp S cs src k'} : Holds fp (.string S) (.notifier k') → k' ≠ some k → Heard T K k fp (.str S cs src) []
  /-- a string that is not transcoded -/
  | copied {fp S cs src} : policyOf cs ≠ .unchecked → ¬ Transcodes K T S cs → Heard T K k fp (.str S cs src) []
  /-- a string that is transcoded; `x` is what the precision keeps of it, which reads as `ms` -/
  | transcoded {fp S cs src} (wc : Print.Calc) (x : List Nat) (ms : List Mark) : Holds fp (.string S) (.notifier (some k)) → Transcodes K T S cs → Holds fp (.string S) (.widthCalc wc) →
    KeptOf wc (charsetOf (K S) cs).name.cs (precisionOf cs) src x → Marks false (charsetOf (K S) cs).name x ms →
    Spared true ⟨false, false, false⟩ (charsetOf (K S) cs).name (K T).name ms →
    Heard T K k fp (.str S cs src) (notes (K T).name x.length ms)
  /-- a string that is transcoded with the unsafe functions (if the charsets do not turn out to be the same), so that it must have no
  ill-formed sequence -/
  | unchecked {fp S cs src} (wc : Print.Calc) (x : List Nat) (ms : List Mark) : Holds fp (.string S) (.notifier (some k)) → policyOf cs = .unchecked →
    Holds fp (.string S) (.widthCalc wc) → KeptOf wc (charsetOf (K S) cs).name.cs (precisionOf cs) src x →
    Marks false (charsetOf (K S) cs).name x ms → (∀ m ∈ ms, m.bad = false) →
    Spared false ⟨false, false, false⟩ (charsetOf (K S) cs).name (K T).name ms →
    Heard T K k fp (.str S cs src) (notes (K T).name x.length ms)
  | rawChr {fp S u} : Heard T K k fp (.rawChr S u) []
  | chr {fp S cs u} : Heard T K k fp (.chr S cs u) []
  | bool {fp as x} : Heard T K k fp (.bool as x) []
  | ptr {fp as address} : Heard T K k fp (.ptr as address) []
  | join {fp args Ns} : AllHeard T K k fp args Ns → Heard T K k fp (.join args) Ns.flatten
  | alignedJoin {fp a args Ns} : AllHeard T K k fp args Ns → Heard T K k fp (.alignedJoin a args) Ns.flatten
  | range {fp args Ns} : AllHeard T K k fp args Ns → Heard T K k fp (.range args) Ns.flatten
  | separatedRange {fp fmt sep args Ns} : AllHeard T K k fp args Ns → Heard T K k fp (.separatedRange fmt sep args) Ns.flatten
  /-- what is to be told of the argument, at each reference to it -/
  | tr {fp str args Ns segs} : Tr.Reads 0 str segs → AllHeard T K k fp args Ns → Heard T K k fp (.tr str args) (atReferences Ns 0 segs)
  | inner {fp fs args Ns} : AllHeard T K k (fp ++ fs) args Ns → Heard T K k fp (.inner fs args) Ns.flatten
/-- for each of the arguments -/
inductive AllHeard (T : CharT) (K : CharT → CharsetArg) (k : Nat) : Pack → List Arg → List (List Event) → Prop
  | nil {fp} : AllHeard T K k fp [] []
  | cons {fp arg args N Ns} : Heard T K k fp arg N → AllHeard T K k fp args Ns → AllHeard T K k fp (arg :: args) (N :: Ns)
end

end Strf.Told

import Verif.TrTold.Model
import Verif.Told.Spec
import Verif.Program.Spec
/-!
# C99: what the error notifier of tr-strings is to be told during a call

Notifiers are facets; `k` is one of them. The order is not specified (an argument of a tr-string may be a tr-string as well).
-/
namespace Strf.TrTold
open Strf.Format
open Strf.Program (Arg Pack Holds)
open Strf.Tr (Reads missing)
open Strf.Told (atReferences Telling)

/-- the notifier is to be told exactly of those, in any order -/
instance : Telling Note := ⟨List.Perm, .refl _, .append⟩

mutual
/-- What the notifier `k` is to be told for an argument, with the facets `fp`: for a tr-string, if `k` is the notifier in force for
tr-strings, of its references to missing arguments, each with the tr-string and its position; and at each reference to an argument, what
is to be told of that. -/
inductive Noted (T : CharT) (k : Nat) : Pack → Arg → List Note → Prop
  | int {fp t cs x} : Noted T k fp (.int t cs x) []
  | float {fp F cs bits} : Noted T k fp (.float F cs bits) []
  | str {fp S cs src} : Noted T k fp (.str S cs src) []
  | rawChr {fp S u} : Noted T k fp (.rawChr S u) []
  | chr {fp S cs u} : Noted T k fp (.chr S cs u) []
  | bool {fp as x} : Noted T k fp (.bool as x) []
  | ptr {fp as address} : Noted T k fp (.ptr as address) []
  | join {fp args Ns} : AllNoted T k fp args Ns → Noted T k fp (.join args) Ns.flatten
  | alignedJoin {fp a args Ns} : AllNoted T k fp args Ns → Noted T k fp (.alignedJoin a args) Ns.flatten
  | range {fp args Ns} : AllNoted T k fp args Ns → Noted T k fp (.range args) Ns.flatten
  | separatedRange {fp fmt sep args Ns} : AllNoted T k fp args Ns → Noted T k fp (.separatedRange fmt sep args) Ns.flatten
  | tr {fp str args Ns segs} : Holds fp (.tr T) (.trNotifier (some k)) → Reads 0 str segs → AllNoted T k fp args Ns →
      Noted T k fp (.tr str args) (atReferences Ns 0 segs ++ (missing args.length 0 segs).map (Note.mk str))
  | trOther {fp str args Ns segs k'} : Holds fp (.tr T) (.trNotifier k') → k' ≠ some k → Reads 0 str segs → AllNoted T k fp args Ns →
      Noted T k fp (.tr str args) (atReferences Ns 0 segs)
  | inner {fp fs args Ns} : AllNoted T k (fp ++ fs) args Ns → Noted T k fp (.inner fs args) Ns.flatten
/-- for each of the arguments -/
inductive AllNoted (T : CharT) (k : Nat) : Pack → List Arg → List (List Note) → Prop
  | nil {fp} : AllNoted T k fp [] []
  | cons {fp arg args N Ns} : Noted T k fp arg N → AllNoted T k fp args Ns → AllNoted T k fp (arg :: args) (N :: Ns)
end

end Strf.TrTold

import Verif.Told.Items
import Verif.Program.Model
import Verif.Print.Tr
/-!
# tr-strings that are printed with a tr-string error notifier, in whole calls

detail/printable_types/tr_string.hpp 24–210: the printers of `strf::tr(…)` hold the notifier (the facet `tr_error_notifier_c` for
`tr_string_tag<CharT>`) and give it to `tr_string_write`. There can be several notifiers, of which `k` is the one whose history is
followed.
-/
namespace Strf.TrTold
open Strf.Dest (Dest)
open Strf.Format
open Strf.Print (Item WCalc Repl makeEach trMake trStringWrite)
open Strf.Program (Arg Pack theCharset theCalc theTrNotifier tuple allConstrainable)
open Strf.Told (logged)

variable {σ : Type}

/-- a call of `handle` (detail/tr_printer.hpp 17–33): the tr-string and the position in it -/
structure Note where
  str : List Nat
  pos : Nat
deriving DecidableEq, Repr

/-- tr_string.hpp 210–355 strf::tr(str, args...) as a printable value, see Print.trItem; 144–151 (and 84–95 without arguments): the call
operator gives the notifier to tr_string_write (detail/tr_printer.hpp 397–489), which calls `handle` at each missing argument.
Simplification: what an argument that is a tr-string itself tells the notifier comes before all of that, and not between. -/
def trItemN (D : Dest Nat σ) (W : WCalc) (R : Repl (σ × List Note)) (str : List Nat) (args : List (Item (σ × List Note))) :
    Item (σ × List Note) where
  make p :=
    (makeEach p.fresh args).bind fun rs =>
      (trMake W R.size (rs.map fun r => r.1.accSize) (rs.map fun r => r.1.accWidth) str p).map fun p =>
        (p, fun s => (trStringWrite (logged D) R (rs.map fun r => r.2) str (s, [])).map fun r => (r.1.1, r.1.2 ++ r.2.map (Note.mk str)))

mutual
/-- make_printer<T>(pre, facets, arg), with the notifier `k`, see Program/Model.lean and the lines cited there. tr_string.hpp 117–143: the
notifier of the facets for `tr_string_tag<T>` -/
def itemN (D : Dest Nat σ) (T : CharT) (sg : CharT → Bool) (k : Nat) (fp : Pack) : Arg → Option (Item (σ × List Note))
  | .join args => (itemsN D T sg k fp args).map (Print.join (logged D))
  | .alignedJoin a args => (itemsN D T sg k fp args).map (Print.alignedJoin (logged D) ((theCharset fp .void T).name.charset (logged D)) a)
  | .range args => (itemsN D T sg k fp args).map (Print.range (logged D))
  | .separatedRange fmt sep args => (itemsN D T sg k fp args).map fun its =>
      let W := (theCalc fp (.string T)).on (sg T) (theCharset fp (.string T) T).name.cs
      if fmt then Print.fmtSeparatedRange (logged D) W sep its else Print.separatedRange (logged D) W sep its
  | .tr str args => (itemsN D T sg k fp args).map fun its =>
      let cs := (theCharset fp (.tr T) T).name.cs
      let W := (theCalc fp (.tr T)).on (sg T) cs
      if theTrNotifier fp (.tr T) = some k then trItemN D W (cs.repl (logged D)) str its
      else Print.trItem (logged D) W (cs.repl (logged D)) str its
  | .inner fs args =>
      if allConstrainable fs then (itemsN D T sg k (Facets.childFacets fp fs) args).map (tuple (logged D)) else none
  | arg => arg.item (logged D) T sg fp
/-- printing_helpers.hpp 360–380: the printers of the arguments -/
def itemsN (D : Dest Nat σ) (T : CharT) (sg : CharT → Bool) (k : Nat) (fp : Pack) : List Arg → Option (List (Item (σ × List Note)))
  | [] => some []
  | a :: as => (itemN D T sg k fp a).bind fun it => (itemsN D T sg k fp as).map fun its => it :: its
end

/-- printing_syntax.hpp 351–405 (`with`), 420–560 (the call operator): the arguments of a call, with tr-string error notifiers among the
facets -/
def callItemsN (D : Dest Nat σ) (T : CharT) (sg : CharT → Bool) (k : Nat) (c : Program.Call) : Option (List (Item (σ × List Note))) :=
  itemsN D T sg k (Facets.callFacets (Facets.withAll [] c.withs) c.facets) c.args

end Strf.TrTold

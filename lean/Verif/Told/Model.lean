import Verif.Told.Items
import Verif.Program.Model
/-!
# Strings that are printed with a transcoding error notifier, in whole calls

string.hpp 794–1093, 1548–1605: the printers of strings that are transcoded hold the notifier (the facet
`transcoding_error_notifier_c` for `string_input_tag<S>`) and give it to the transcoding functions that write to the destination; those that
calculate the size are not given it. No other printer of the library holds it.

There can be several notifiers, of which `k` is the one whose history (`Log`) is followed: a printer of a string with another notifier, or
with a null pointer, adds nothing to it.
-/
namespace Strf.Told
open Strf.Dest (Dest)
open Strf.Format

open Strf.Print (Item Cs Content How stringItem)
open Strf.Program (Arg Pack theCharset theCalc theNotifier tuple allConstrainable)
open Strf.Charset (Event)

variable {σ : Type}

/-- string.hpp 889–905, 1078–1093: call operator of the transcoding printers: `transcode` (charset.hpp 1585–1612) without flags, with the
notifier. `s` and `d` are the charset of the string and that of the destination. -/
def loggedWrite (D : Dest Nat σ) (S T : CharT) (s d : CharsetArg) (src : List Nat) (st : σ × Log) : Option (σ × Log) :=
  (Transcode.transcodeDst D S T s d ⟨false, false, false⟩ st.1 src).map fun r => (r.1, st.2 ++ r.2.events)

/-- string.hpp 1206–1219, 1377–1396: call operator of the printers that transcode with the unsafe functions (1136–1146, 1317–1330), with the
notifier: `unsafe_transcode` (charset.hpp 1744–1771) -/
def loggedUnsafe (D : Dest Nat σ) (S T : CharT) (s d : CharsetArg) (src : List Nat) (st : σ × Log) : Option (σ × Log) :=
  (Transcode.unsafeTranscodeDst D S T s d ⟨false, false, false⟩ st.1 src).map fun r => (r.1, st.2 ++ r.2.events)

/-- string.hpp 524–1400: the content of a string -/
def loggedContent (D : Dest Nat σ) (S T : CharT) (signed : Bool) (s d : CharsetArg) : How → Content (σ × Log)
  | .transcode => ⟨loggedWrite D S T s d, (How.transcode.content D signed (s.name.id = d.name.id) s.name.cs d.name.cs).size⟩
  | .unchecked => ⟨loggedUnsafe D S T s d, (How.unchecked.content D signed (s.name.id = d.name.id) s.name.cs d.name.cs).size⟩
  | how => how.content (logged D) signed (s.name.id = d.name.id) s.name.cs d.name.cs

/-- string.hpp 1736–1775 string_printing<SrcCharT>::make_printer, with a notifier (see Format/StringModel.lean) -/
def stringItemE (D : Dest Nat σ) (F : StringFacets) (S T : CharT) (signed : Bool) (v : StringVal) (src : List Nat) :
    Option (Item (σ × Log)) :=
  if v.compiles F S T then
    let s := v.charset.getD (F.charset S)
    let d := F.charset T
    let how := v.how F S T
    some (stringItem (d.name.charset (logged D)) (F.widthCalc.on signed (v.widthCharset F S how).cs)
      (loggedContent D S T signed s d how) how v.align v.precision src)
  else none

mutual
/-- make_printer<T>(pre, facets, arg), with a notifier `k` that the printers of strings tell of the problems (string.hpp 812, 836, 939, 965,
1112, 1135, 1240, 1266; see Program/Model.lean, and the
lines cited there) -/
def itemE (D : Dest Nat σ) (T : CharT) (sg : CharT → Bool) (k : Nat) (fp : Pack) : Arg → Option (Item (σ × Log))
  | .str S cs src =>
      if theNotifier fp (.string S) = some k then
        stringItemE D ⟨theCharset fp (.string S), theCalc fp (.string S)⟩ S T (sg S) (stringChain cs) src
      else (Arg.str S cs src).item (logged D) T sg fp
  | .join args => (itemsE D T sg k fp args).map (Print.join (logged D))
  | .alignedJoin a args => (itemsE D T sg k fp args).map (Print.alignedJoin (logged D) ((theCharset fp .void T).name.charset (logged D)) a)
  | .range args => (itemsE D T sg k fp args).map (Print.range (logged D))
  | .separatedRange fmt sep args => (itemsE D T sg k fp args).map fun its =>
      let W := (theCalc fp (.string T)).on (sg T) (theCharset fp (.string T) T).name.cs
      if fmt then Print.fmtSeparatedRange (logged D) W sep its else Print.separatedRange (logged D) W sep its
  | .tr str args => (itemsE D T sg k fp args).map fun its =>
      let cs := (theCharset fp (.tr T) T).name.cs
      Print.trItem (logged D) ((theCalc fp (.tr T)).on (sg T) cs) (cs.repl (logged D)) str its
  | .inner fs args =>
      if allConstrainable fs then (itemsE D T sg k (Facets.childFacets fp fs) args).map (tuple (logged D)) else none
  | arg => arg.item (logged D) T sg fp
/-- printing_helpers.hpp 360–380: the printers of the arguments -/
def itemsE (D : Dest Nat σ) (T : CharT) (sg : CharT → Bool) (k : Nat) (fp : Pack) : List Arg → Option (List (Item (σ × Log)))
  | [] => some []
  | a :: as => (itemE D T sg k fp a).bind fun it => (itemsE D T sg k fp as).map fun its => it :: its
end

/-- printing_syntax.hpp 351–405 (`with`), 420–560 (the call operator): the arguments of a call, with a notifier among the facets -/
def callItemsE (D : Dest Nat σ) (T : CharT) (sg : CharT → Bool) (k : Nat) (c : Program.Call) : Option (List (Item (σ × Log))) :=
  itemsE D T sg k (Facets.callFacets (Facets.withAll [] c.withs) c.facets) c.args

end Strf.Told

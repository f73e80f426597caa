import Verif.Override.Spec
/-!
# Model: which class prints an argument

include/strf/detail/printing_helpers.hpp and printable_def.hpp: the printer of an argument is made by its definition, or by the overrider in the facets, which may call
`strf::make_printer` again. `none`: it does not compile. `n`: the greatest depth of template instantiations of the compiler; a program for which no depth suffices does not compile.
Not here: classes with a function `print` in the place of `make_printer` (printing_helpers.hpp 226–336, 385–448), which print without premeasurements only: see Direct/Model.lean.
-/
namespace Strf.Override
open Strf.Format
open Strf.Program (Tag theCharset theCalc allConstrainable)
open Strf.Print (Item)
open Strf.Dest (Dest)

variable {ω υ π : Type}

/-- the types that can be overridden: float.hpp 2586, bool.hpp 133, int.hpp 2391 (pointers); not the integers: int.hpp 2248, characters: char.hpp 287, 339, and strings:
string.hpp 1739 -/
def Leaf.overridable : Leaf → Bool
  | .float .. | .bool .. | .ptr .. => true
  | _ => false

/-- printing_helpers.hpp 112–178: the overrider, if the type can be overridden and the facet is not dont_override<representative> (154–156); the category is
printable_overrider_c<representative> and the tag the representative (122, 149) -/
def theOverrider (fp : UPack ω) (overridable : Bool) (type : UTag) : Option ω :=
  if overridable then
    match Facets.getFacet udflt (.overrider type) type fp with
    | .overrider _ o => some o
    | _ => none
  else none

/-- printing_helpers.hpp 360–380: one printer for each argument -/
def makeEach {α β : Type} (f : α → Option β) : List α → Option (List β)
  | [] => some []
  | a :: as => (f a).bind fun b => (makeEach f as).map fun bs => b :: bs

variable {σ : Type} (D : Dest Nat σ) (T : CharT) (sg : CharT → Bool) (cl : Classes ω υ π)

/-- printable_def.hpp 389–402 make_printer<CharT>(pre, facets, arg). The lists of arguments as in Program/Model.lean. -/
def make : Nat → UPack ω → UArg ω υ → Option (Item σ)
  | 0, _, _ => none
  | n + 1, fp, a =>
    let body : Body ω υ π → Option (Item σ) := fun
      | .arg fp a => make n fp a
      | .printer p => some (cl.printer D p)
    match a with
    | .leaf l =>
      match theOverrider fp l.overridable (.std l.tag) with
      | none => l.arg.item D T sg (stdAll fp)
      | some o => (cl.override o T fp l).bind body
    | .user u =>
      match theOverrider fp (cl.overridable u) (.user (cl.type u)) with
      | none => (cl.define u T fp).bind body
      | some o => (cl.overrideUser o T fp u).bind body
    | .join args => (makeEach (make n fp) args).map (Print.join D)
    | .alignedJoin al args => (makeEach (make n fp) args).map
        (Print.alignedJoin D ((theCharset (stdAll fp) .void T).name.charset D) al)
    | .range args => (makeEach (make n fp) args).map (Print.range D)
    | .separatedRange fmt sep args => (makeEach (make n fp) args).map fun its =>
        let W := (theCalc (stdAll fp) (.string T)).on (sg T) (theCharset (stdAll fp) (.string T) T).name.cs
        if fmt then Print.fmtSeparatedRange D W sep its else Print.separatedRange D W sep its
    | .tr str args => (makeEach (make n fp) args).map fun its =>
        let cs := (theCharset (stdAll fp) (.tr T) T).name.cs
        Print.trItem D ((theCalc (stdAll fp) (.tr T)).on (sg T) cs) (cs.repl D) str its
    | .inner fs args =>
        if allConstrainable (stdAll fs) then
          (makeEach (make n (Facets.childFacets fp fs)) args).map (Program.tuple D)
        else none

/-- printing_syntax.hpp 351–560, separate_args_and_print.hpp 41–86: the facets and the printers of a call -/
def UCall.items (n : Nat) (c : UCall ω υ) : Option (List (Item σ)) :=
  makeEach (make D T sg cl n (Facets.callFacets (Facets.withAll [] c.withs) c.facets)) c.args

end Strf.Override

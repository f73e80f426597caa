import Verif.Direct.Spec
/-!
# Model: `print` or `make_printer`

include/strf/detail/printing_helpers.hpp 226–605, printable_def.hpp 28–72, join.hpp 120–157, 272–292, range.hpp. `none`: it does not compile. `n`: the greatest depth of
template instantiations.
-/
namespace Strf.Direct
open Strf.Format
open Strf.Program (theCharset theCalc allConstrainable)
open Strf.Print (Item printAll)
open Strf.Dest (Dest)
open Strf.Override

variable {ω υ π ρ σ : Type}

/-- `something`: premeasurements; the others: no_premeasurements -/
inductive Mode
  | something
  | nothing (h : How)
deriving DecidableEq, Repr

/-- an item that is only printed: what `print` functions are called through (printing_helpers.hpp 226–238, 385–448) -/
def only (pr : σ → Option σ) : Item σ := ⟨fun p => if p.idle then some (p, pr) else none⟩

/-- an element of a range: measured by the one (range.hpp 146, 219, 312, 398, 484, 558), printed by the other (155, 244–247, 325, 427–430, 493, 583–586) -/
def split (measured printed : Item σ) : Item σ := ⟨fun p => if p.idle then printed.make p else measured.make p⟩

def splitAll : List (Item σ) → List (Item σ) → List (Item σ)
  | m :: ms, p :: ps => split m p :: splitAll ms ps
  | _, _ => []

/-- which function is called: with premeasurements make_printer, printing_helpers.hpp 191–224; without, directly: the functions `test_` in order of rank,
`print` 273–293 before `make_printer` 296–315; for `tr`: `make_printer` 490–514 before `print` 518–541; `strf::make_printer` and printer_type with no_premeasurements:
printable_def.hpp 389–402, 486–490. `true`: `print`. -/
def Mode.choose (md : Mode) (make print : Bool) : Option Bool :=
  match md with
  | .something | .nothing .printer => if make then some false else none
  | .nothing .direct => if print then some true else if make then some false else none
  | .nothing .tr => if make then some false else if print then some true else none

/-- with which premeasurements the printers in a printers_tuple are made (printers_tuple.hpp 178–196, tr_string.hpp 191–195, facets_pack.hpp 52–68): the same; by
make_printer -/
def Mode.inside : Mode → Mode
  | .something => .something
  | .nothing _ => .nothing .printer

variable (D : Dest Nat σ) (T : CharT) (sg : CharT → Bool) (cl : PClasses ω υ π ρ)

/-- how an argument is printed and measured: without premeasurements print_one_printable (printable_def.hpp 28–37) or make_printer; with them make_printer -/
def gen : Nat → Mode → UPack ω → UArg ω υ → Option (Item σ)
  | 0, _, _, _ => none
  | n + 1, md, fp, a =>
    let cls : Option (Body ω υ π) → Option (PBody ω υ ρ) → Option (Item σ) := fun mk pr =>
      (md.choose mk.isSome pr.isSome).bind fun b =>
        if b then pr.bind fun
          | .call fp args => (makeEach (gen n (.nothing .direct) (Facets.callFacets (Facets.withAll [] [fp]) [])) args).map fun its => only (printAll D its)
          | .own r => some (only (cl.own D r))
        else mk.bind fun
          | .arg fp a => gen n md.inside fp a
          | .printer p => some (cl.printer D p)
    let elements : List (UArg ω υ) → Option (List (Item σ)) := fun args =>
      match md with
      | .something => (makeEach (gen n .something fp) args).bind fun ms => (makeEach (gen n (.nothing .direct) fp) args).map fun ps => splitAll ms ps
      | .nothing _ => makeEach (gen n (.nothing .direct) fp) args
    match a with
    | .leaf l =>
      match theOverrider fp l.overridable (.std l.tag) with
      | none => l.arg.item D T sg (stdAll fp)
      | some o => cls (cl.override o T fp l) (cl.printOver o T fp l)
    | .user u =>
      match theOverrider fp (cl.overridable u) (.user (cl.type u)) with
      | none => cls (cl.define u T fp) (cl.printDef u T fp)
      | some o => cls (cl.overrideUser o T fp u) (cl.printOverUser o T fp u)
    | .join args =>
      match md with
      | .something => (makeEach (gen n .something fp) args).map (Print.join D)
      | .nothing _ => (makeEach (gen n (.nothing .direct) fp) args).map (Print.join D)
    | .alignedJoin al args => (makeEach (gen n .something fp) args).map
        (Print.alignedJoin D ((theCharset (stdAll fp) .void T).name.charset D) al)
    | .range args => (elements args).map (Print.range D)
    | .separatedRange fmt sep args => (elements args).map fun its =>
        let W := (theCalc (stdAll fp) (.string T)).on (sg T) (theCharset (stdAll fp) (.string T) T).name.cs
        if fmt then Print.fmtSeparatedRange D W sep its else Print.separatedRange D W sep its
    | .tr str args => (makeEach (gen n md.inside fp) args).map fun its =>
        let cs := (theCharset (stdAll fp) (.tr T) T).name.cs
        Print.trItem D ((theCalc (stdAll fp) (.tr T)).on (sg T) cs) (cs.repl D) str its
    | .inner fs args =>
        if allConstrainable (stdAll fs) then
          (makeEach (gen n md.inside (Facets.childFacets fp fs)) args).map (Program.tuple D)
        else none

/-- the facets of a call -/
def callPack (c : UCall ω υ) : UPack ω := Facets.callFacets (Facets.withAll [] c.withs) c.facets

/-- the arguments of a call; reserve_policies.hpp 91–143: without premeasurements print_printables, 145–205 reserve_calc: make_printer; 229–292 tr: helper_for_tr_printing_without_premeasurements -/
def callItems (n : Nat) (md : Mode) (c : UCall ω υ) : Option (List (Item σ)) := makeEach (gen D T sg cl n md (callPack c)) c.args

end Strf.Direct

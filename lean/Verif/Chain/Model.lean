import Verif.Chain.Spec
import Verif.Program.TrCallProps
/-!
# Printing syntax objects

include/strf/printing_syntax.hpp 17–446 and the creators of include/strf/to_string.hpp. Whether a call compiles depends on the value category of the object and on
the reserve policy, which is part of its type: `none` means that it does not compile. Simplified: the creator of the destination and the facets can be copied (all
those of the library can; with others `using fpe_funcs_copy<…>::with`, 426, names nothing), and the expressions `std::move(x)` of constant objects are left out.
-/
namespace Strf.Chain
open Strf.Dest (Dest Maker Sized Appender)
open Strf.Print (Item printPlain printCalc printTr printTrCalc)
open Strf.Program (Pack Arg)
open Strf.Format (CharT)

/-- The value category of the object: an rvalue, a variable, a constant. -/
inductive Ref
  | rvalue
  | lvalue
  | constLvalue
deriving DecidableEq

/-- printing_syntax.hpp 17–48: what the creator provides, `create()` and `create(size)` -/
structure Caps where
  plain : Bool
  sized : Bool

/-- printing_syntax.hpp 455–466: the members; the creator is not modelled here. -/
structure Obj where
  ref : Ref
  policy : Policy
  pack : Pack

/-- printing_syntax.hpp 172–176, 212–216, 251–253: the assertions made when the type is instantiated -/
def Policy.fits (c : Caps) : Policy → Bool
  | .noReserve => c.plain
  | .given _ => c.sized
  | .measured => c.sized

/-- printing_syntax.hpp 56–165: an object of another type, with a new policy; `viaConst`: what `… () const &` compiles to -/
def Obj.change (c : Caps) (o : Obj) (p : Policy) (viaConst : Bool) : Option Obj :=
  if p.fits c && (o.ref = .rvalue || viaConst) then some ⟨.rvalue, p, o.pack⟩ else none

/-- printing_syntax.hpp 168–197, 209–235, 247–305: the functions of each policy. `no_reserve() const &` (70–75) lacks an argument and never compiles;
an object with `reserve_given_space` has no function `reserve` (247–250). -/
def Obj.step (c : Caps) (o : Obj) : Step → Option Obj
  | .named const => some { o with ref := if const then .constLvalue else .lvalue }
  | .with [] =>
    -- 428–450: `with()` returns the object; `with() &` returns an rvalue as an lvalue
    if o.ref = .lvalue then none else some o
  | .with (f :: fs) => some ⟨.rvalue, o.policy, Facets.merge o.pack (f :: fs)⟩  -- 349–366, 379–394
  | .noReserve =>
    match o.policy with
    | .noReserve => some o  -- 188–203
    | _ => o.change c .noReserve false
  | .reserveCalc =>
    match o.policy with
    | .measured => some o  -- 228–243
    | _ => o.change c .measured true
  | .reserve n =>
    match o.policy with
    | .given _ => none
    | _ => o.change c (.given n.toNat) true
  | .reserveGivenSpace n =>
    match o.policy with
    | .given _ =>
      -- 276–313: of a variable and of an rvalue the object itself is changed and returned; of a constant it is copied
      some ⟨if o.ref = .constLvalue then .rvalue else o.ref, .given n, o.pack⟩
    | _ => none

/-- printing_syntax.hpp 17–446: the steps, one after the other -/
def Obj.steps (c : Caps) : Obj → List Step → Option Obj
  | o, [] => some o
  | o, st :: l => (o.step c st).bind fun o => o.steps c l

variable {σ σ' : Type}

/-- A destination creator: the destination types and how they are created, to_string.hpp 271–330. `sized`: sized_destination_type. `plainSized`: destination_type, if it can
be created with a size. -/
structure Creator (σ σ' : Type) where
  dest : Dest Nat σ
  create : σ
  sized : Option (Dest Nat σ' × (Nat → σ'))
  plainSized : Option (Nat → σ)

/-- printing_syntax.hpp 17–48 -/
def Creator.caps (cr : Creator σ σ') : Caps := ⟨true, cr.sized.isSome⟩

/-- printing_syntax.hpp 551–567 operator() and line, separate_args_and_print.hpp 41–86, reserve_policies.hpp 91–205: the state of the destination before finish().
`order`: in which order the printers are made -/
def Obj.call (cr : Creator σ σ') (T : CharT) (sg : CharT → Bool) (o : Obj) (fs : Pack) (args : List Arg) (eol : Bool) (order : List Nat) :
    Option (σ ⊕ σ') :=
  let fp := Facets.callFacets o.pack fs
  match o.policy with
  | .noReserve => (Program.items cr.dest T sg fp args).bind fun its => (printPlain cr.dest eol its cr.create).map .inl
  | .given n => cr.sized.bind fun d => (Program.items d.1 T sg fp args).bind fun its => (printPlain d.1 eol its (d.2 n)).map .inr
  | .measured => cr.sized.bind fun d => (Program.items d.1 T sg fp args).bind fun its => (printCalc d.1 eol its order d.2).map .inr

/-- printing_syntax.hpp 569–585 tr and trline, separate_args_and_print.hpp 97–226, reserve_policies.hpp 229–374: also what is told the tr_error_notifier.
With reserve_calc it is destination_type that is created with the size (342). -/
def Obj.tr (cr : Creator σ σ') (T : CharT) (sg : CharT → Bool) (o : Obj) (fs : Pack) (str : List Nat) (args : List Arg) (eol : Bool) :
    Option ((σ ⊕ σ') × List Nat) :=
  let fp := Facets.callFacets o.pack fs
  let cs := (Program.theCharset fp .void T).name.cs
  match o.policy with
  | .noReserve => (Program.items cr.dest T sg fp args).bind fun its =>
      (printTr cr.dest (cs.repl cr.dest) eol str its cr.create).map fun r => (.inl r.1, r.2)
  | .given n => cr.sized.bind fun d => (Program.items d.1 T sg fp args).bind fun its =>
      (printTr d.1 (cs.repl d.1) eol str its (d.2 n)).map fun r => (.inr r.1, r.2)
  | .measured => cr.plainSized.bind fun create => (Program.items cr.dest T sg fp args).bind fun its =>
      (printTrCalc cr.dest (cs.repl cr.dest) eol str its create).map fun r => (.inl r.1, r.2)

/-! ## The creators of the library -/

/-- to_string.hpp 303–330 basic_string_maker_creator; `junk`: what its buffer holds -/
def maker (junk : List Nat) : Creator (Maker Nat) (Sized Nat) := ⟨Maker.dest, Maker.init junk, some (Sized.dest 0, Sized.init 0), none⟩

/-- to_string.hpp 272–301 basic_string_appender_creator, of a string with the content `start`; `create(size)` only reserves memory -/
def appender (start junk : List Nat) : Creator (Appender Nat) (Appender Nat) :=
  ⟨Appender.dest, Appender.init start junk, some (Appender.dest, fun _ => Appender.init start junk), some fun _ => Appender.init start junk⟩

/-- the creators that have only `create()`: printing_syntax.hpp 601–690 destination_reference, basic_cstr_destination_creator, array_destination_creator;
to_cfile.hpp, to_streambuf.hpp -/
def plainOnly (D : Dest Nat σ) (s : σ) : Creator σ Empty := ⟨D, s, none, none⟩

/-- `strf::to_string` is a constant -/
def aConstant : Obj := ⟨.constLvalue, .noReserve, []⟩
/-- `strf::to(…)`, `strf::append(str)` -/
def anRvalue : Obj := ⟨.rvalue, .noReserve, []⟩

end Strf.Chain

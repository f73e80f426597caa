import Verif.Program.Spec
/-!
# What a chain of calls on a printing syntax object asks for

`to_string.with(f1).reserve(50).with(f2, f3)(args...)`: facets are gathered in the order in which they are written, and the reserve policy is the one written last.
-/
namespace Strf.Chain
open Strf.Program (Pack)

/-- How the destination is to be created: without size, with a size that is given, with the size of what is printed. -/
inductive Policy
  | noReserve
  | given (n : Nat)
  | measured
deriving DecidableEq

/-- What can be done with a printing syntax object before it is called. -/
inductive Step
  /-- `.with(fs...)` -/
  | with (fs : Pack)
  /-- `.no_reserve()` -/
  | noReserve
  /-- `.reserve(n)`, for any integer type -/
  | reserve (n : Int)
  /-- `.reserve_calc()` -/
  | reserveCalc
  /-- `.reserve_given_space(n)`; not documented, but a public member -/
  | reserveGivenSpace (n : Nat)
  /-- the object is given a name: `auto x = …;`, or `const auto x = …;` and what follows is written after `x` -/
  | named (const : Bool)

/-- the facets, as they were written -/
def facets : List Step → List Pack
  | [] => []
  | .with fs :: l => fs :: facets l
  | _ :: l => facets l

/-- the policy that a step asks for; a size is never negative -/
def Step.asks : Step → Option Policy
  | .noReserve => some .noReserve
  | .reserve n => some (.given n.toNat)
  | .reserveCalc => some .measured
  | .reserveGivenSpace n => some (.given n)
  | .with _ | .named _ => none

/-- the policy written last, or else the first one -/
def lastPolicy (first : Policy) (l : List Step) : Policy := (l.filterMap Step.asks).getLast?.getD first

example : lastPolicy .noReserve [.reserve 50, .with [], .reserveCalc, .named true, .with []] = .measured := rfl
example : lastPolicy .noReserve [.with []] = .noReserve ∧ lastPolicy .noReserve [.reserveCalc, .reserve (-3)] = .given 0 := ⟨rfl, rfl⟩

/-- the size with which the destination is to be created, for a text of `len` characters -/
def Policy.size (len : Nat) : Policy → Option Nat
  | .noReserve => none
  | .given n => some n
  | .measured => some len

end Strf.Chain

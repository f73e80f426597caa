/-
What a digit grouping means (docs/ref_numpunct.adoc, `digits_grouping`), without reference to the code.

A grouping is a list of group sizes, from the least significant group up, and a flag: is the last group
repeated for ever, or are the remaining digits left together.
-/
namespace Strf.Numpunct.Spec

/-- the size of the `i`-th group from the least significant one (0-based); `none`: no further separator -/
def groupSize (gs : List Nat) (rep : Bool) (i : Nat) : Option Nat :=
  if i < gs.length then gs[i]? else if rep then gs.getLast? else none

/-- the sizes of the groups into which `n` digits are split, least significant first: take whole groups as
long as digits remain beyond them, the rest is the last (most significant) group. `fuel` only bounds the
recursion; `n` is always enough because groups are not empty. -/
def splitFrom (gs : List Nat) (rep : Bool) : Nat → Nat → Nat → List Nat
  | 0, _, n => [n]
  | fuel + 1, i, n =>
    match groupSize gs rep i with
    | none => [n]
    | some g => if n ≤ g then [n] else g :: splitFrom gs rep fuel (i + 1) (n - g)

/-- the groups of `n` digits, least significant first -/
def split (gs : List Nat) (rep : Bool) (n : Nat) : List Nat := splitFrom gs rep n 0 n

/-- there is a group boundary after the `k` least significant digits: `k` is the sum of the first `j ≥ 1`
groups -/
def Boundary (gs : List Nat) (rep : Bool) (k : Nat) : Prop :=
  ∃ sizes : List Nat, sizes ≠ [] ∧ sizes.sum = k ∧
    ∀ i, i < sizes.length → groupSize gs rep i = sizes[i]?

/-- the groupings the library can represent: at most six groups of 1 to 31 digits; without groups there is
nothing to repeat -/
def Valid (gs : List Nat) (rep : Bool) : Prop :=
  gs.length ≤ 6 ∧ (∀ g ∈ gs, 1 ≤ g ∧ g ≤ 31) ∧ (gs = [] → rep = false)

instance (gs : List Nat) (rep : Bool) : Decidable (Valid gs rep) := by unfold Valid; infer_instance

/-- the constructor's arguments for a grouping: the groups, then -1 if the last is not to be repeated
(docs/ref_numpunct.adoc, `digits_grouping(int grp0, IntArgs... grps)`) -/
def args (gs : List Nat) (rep : Bool) : List Int := gs.map Int.ofNat ++ (if rep then [] else [-1])

end Strf.Numpunct.Spec

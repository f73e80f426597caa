import Mathlib.Data.Nat.Digits.Defs
/-
What the digits of an integer are, without reference to the code. `Nat.digits` is Mathlib's positional notation
(least significant digit first, empty for zero).
-/
namespace Strf.IntDigits.Spec

/-- `strf::lettercase` -/
inductive Lettercase | lower | mixed | upper
deriving DecidableEq, Repr

/-- the numeral of `v` in base `b`, most significant digit first, without leading zeros; zero has one digit -/
def numeral (b v : Nat) : List Nat := if v = 0 then [0] else (Nat.digits b v).reverse

/-- the character of a digit: '0'-'9', then 'a'-'f', or 'A'-'F' unless the case is `lower` -/
def digitChar (lc : Lettercase) (d : Nat) : Nat :=
  if d < 10 then 48 + d else if lc = .lower then 97 + (d - 10) else 65 + (d - 10)

/-- the text of `v` in base `b` -/
def text (b : Nat) (lc : Lettercase) (v : Nat) : List Nat := (numeral b v).map (digitChar lc)

/-- the value of a digit character -/
def digitVal (c : Nat) : Nat := if c < 58 then c - 48 else if c < 97 then c - 55 else c - 87

/-- the number a text denotes in base `b` -/
def parse (b : Nat) (cs : List Nat) : Nat := cs.foldl (fun acc c => acc * b + digitVal c) 0

/-- cut a list into pieces of the given sizes -/
def chop {α : Type} : List Nat → List α → List (List α)
  | [], _ => []
  | n :: ns, xs => xs.take n :: chop ns (xs.drop n)

/-- digits cut into groups (sizes given from the most significant one), with the separator between groups -/
def grouped {α : Type} (sep : List α) (sizes : List Nat) (ds : List α) : List α :=
  List.intercalate sep (chop sizes ds)

end Strf.IntDigits.Spec

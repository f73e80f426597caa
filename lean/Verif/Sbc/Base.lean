/-! # Building blocks of the single-byte charsets -/
namespace Strf.Sbc

/-- The class `Impl` that the templates of single_byte_charsets.hpp are instantiated with: `decode` and `is_valid` are
applied to bytes; `encode` gives a byte, or 0x100 or more. `checksInvalid` says which of the base classes
sbcs_find_invalid_seq_crtp (l.86–112) or sbcs_never_has_invalid_seq_crtp (l.114–128) it has. -/
structure Impl where
  decode : Nat → Nat
  encode : Nat → Nat
  isValid : Nat → Bool
  checksInvalid : Bool

/-- standard_lib_functions.hpp 413–437: the loop of lower_bound. `first` and `n` are `first` and
search_range_length. -/
def lowerBound (m : List (Nat × Nat)) (key first n : Nat) : Nat :=
  if _h : 0 < n then
    let half := n / 2
    if (m.getD (first + half) (0, 0)).1 < key then lowerBound m key (first + half + 1) (n - (half + 1))
    else lowerBound m key first half
  else first
  termination_by n
  decreasing_by all_goals omega

/-- The end of every encode_ext with a char_map, e.g. single_byte_charsets.hpp 467–470. -/
def lookup (m : List (Nat × Nat)) (ch : Nat) : Nat :=
  let it := lowerBound m ch 0 m.length
  if it ≠ m.length ∧ (m.getD it (0, 0)).1 = ch then (m.getD it (0, 0)).2 else 0x100

/-- A switch statement: the cases in order, and the default. -/
def pick (cases : List (Nat × Nat)) (ch dflt : Nat) : Nat :=
  match cases with
  | [] => dflt
  | c :: cs => if ch = c.1 then c.2 else pick cs ch dflt

end Strf.Sbc

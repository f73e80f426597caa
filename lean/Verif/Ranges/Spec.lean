/-!
# What the functions that make ranges mean

`strf::range`, `strf::separated_range`, `strf::fmt_range`, `strf::fmt_separated_range`: the elements are given by two iterators, or as a container, an initializer list
or an array; and perhaps a function that is called on each. A user expects the elements from the first to the last, in that order, each of them passed to the function
once each time that the range is gone through.
-/
namespace Strf.Ranges

/-- how the elements are given -/
inductive Given (α : Type)
  /-- two iterators over a sequence: positions in it; the position after the last element is its length -/ | iterators (seq : List α) (b e : Nat)
  /-- an object with `begin()` and `end()` -/ | container (seq : List α)
  /-- an initializer list -/ | initList (seq : List α)
  /-- `T (&)[N]` -/ | array (seq : List α)

/-- the elements: all of them, from the first iterator up to the second -/
def Given.elements {α : Type} : Given α → List α
  | .iterators seq b e => (seq.take e).drop b
  | .container seq | .initList seq | .array seq => seq

/-- the second iterator is reached from the first, and both are in the sequence -/
def Given.Valid {α : Type} : Given α → Prop
  | .iterators seq b e => b ≤ e ∧ e ≤ seq.length
  | _ => True

instance {α : Type} (g : Given α) : Decidable g.Valid := by cases g <;> unfold Given.Valid <;> infer_instance

/-- the string at position `p` of the memory, up to the zero that ends it -/
def IsCstr (mem : List Nat) (p : Nat) (text : List Nat) : Prop := ∃ after, mem.drop p = text ++ 0 :: after ∧ 0 ∉ text

/-- What a function with a state `ω` (for instance one that counts its calls) returns when it is called on each element in turn. -/
def returned {α β ω : Type} (op : ω → α → ω × β) : ω → List α → List β
  | _, [] => []
  | w, x :: xs => (op w x).2 :: returned op (op w x).1 xs

/-- its state after that -/
def after {α β ω : Type} (op : ω → α → ω × β) : ω → List α → ω
  | w, [] => w
  | w, x :: xs => after op (op w x).1 xs

end Strf.Ranges

import Verif.Dest.Model
import Verif.Dest.Memory
/-
Models of `basic_cstr_destination`, `array_destination` and `discarder` (include/strf/destination.hpp).

Memory: the user's array `arr` and the static 64-unit `garbage_buff` (destination.hpp:276-294). Pointers are
locations in one of them (`null` initially for `it_`).
-/
namespace Strf.Dest
variable {α : Type}

/-- destination.hpp 274–294: a pointer value: into the user's array, or into `garbage_buff` -/
inductive Loc where
  | null
  | user (i : Nat)
  | garbage (i : Nat)
  deriving DecidableEq, Repr

/-- destination.hpp:296-391 / 441-526: the members `pointer_`, `end_`, `good_`, `it_`, and the memory -/
structure Arr (α : Type) where
  arr : List α
  garb : List α
  ptr : Loc
  end_ : Loc
  it : Loc
  good : Bool

namespace Arr

/-- destination.hpp:303-333 constructors of `basic_cstr_destination`: the window is all but the last element -/
def initCstr (arr garb : List α) : Arr α :=
  { arr, garb, ptr := .user 0, end_ := .user (arr.length - 1), it := .null, good := true }

/-- destination.hpp:445-479 constructors of `array_destination`: the window is the whole range -/
def initArray (arr garb : List α) : Arr α :=
  { arr, garb, ptr := .user 0, end_ := .user arr.length, it := .null, good := true }

/-- destination.hpp:100-109 `buffer_space()` -/
def space (s : Arr α) : Nat :=
  match s.ptr, s.end_ with
  | .user i, .user j => j - i
  | .garbage i, .garbage j => j - i
  | _, _ => 0

/-- destination.hpp 76–130: stores from `buffer_ptr()` on, then advancing; undefined outside the window -/
def poke (s : Arr α) (xs : List α) : Option (Arr α) :=
  if xs.length ≤ s.space then
    match s.ptr with
    | .user i => (storeAt s.arr i xs).map fun a => { s with arr := a, ptr := .user (i + xs.length) }
    | .garbage i => (storeAt s.garb i xs).map fun g => { s with garb := g, ptr := .garbage (i + xs.length) }
    | .null => none
  else none

/-- destination.hpp:339-347 (cstr) and 483-491 (array) `recycle()` -/
def recycle (s : Arr α) : Arr α :=
  let s := if s.good then { s with it := s.ptr, good := false, end_ := .garbage 64 } else s
  { s with ptr := .garbage 0 }

/-- destination.hpp:373-388 (cstr) and 508-523 (array) `do_write(data, count)`: `count` is ignored, as many
characters as fit are copied (undefined if fewer are given) -/
def doWrite (s : Arr α) (xs : List α) : Option (Arr α) :=
  let sub := s.space
  if xs.length < sub then none
  else
    (poke s (xs.take sub)).map fun s' =>
      { s' with it := s'.end_, ptr := .garbage 0, end_ := .garbage 64, good := false }

/-- destination.hpp 296–391, 441–526: the destination (both classes) -/
abbrev dest : Dest α (Arr α) where
  space := space
  good s := s.good
  poke := poke
  recycle := recycle
  doWrite := doWrite

/-- destination.hpp 349–371: `*p = c` -/
def assign (s : Arr α) (p : Loc) (c : α) : Option (Arr α) :=
  match p with
  | .user i => (storeAt s.arr i [c]).map fun a => { s with arr := a }
  | .garbage i => (storeAt s.garb i [c]).map fun g => { s with garb := g }
  | .null => none

/-- destination.hpp:355-368 `basic_cstr_destination::finish()`: final memory, returned pointer, truncated flag -/
def finishCstr (zero : α) (s : Arr α) : Option (Arr α × Loc × Bool) :=
  let g := s.good
  let s := if g then { s with it := s.ptr, good := false } else s
  let s := { s with ptr := .garbage 0, end_ := .garbage 64 }
  (assign s s.it zero).map fun s' => (s', s'.it, !g)

/-- destination.hpp:499-504 `array_destination::finish()` -/
def finishArray (s : Arr α) : Loc × Bool :=
  let truncated := !s.good
  (if truncated then s.it else s.ptr, truncated)

end Arr

/-! ### discarder -/

/-- destination.hpp:541-566 `discarder` -/
structure Discarder (α : Type) where
  garb : List α
  ptr : Nat

namespace Discarder

/-- destination.hpp:549-553 constructor -/
def init (garb : List α) : Discarder α := { garb, ptr := 0 }

/-- destination.hpp:541-566; `good()` is always false -/
abbrev dest : Dest α (Discarder α) where
  space s := 64 - s.ptr
  good _ := false
  poke s xs := if xs.length ≤ 64 - s.ptr then
      (storeAt s.garb s.ptr xs).map fun g => { garb := g, ptr := s.ptr + xs.length } else none
  recycle s := { s with ptr := 0 }
  doWrite s _ := some { s with ptr := 0 }

end Discarder
end Strf.Dest

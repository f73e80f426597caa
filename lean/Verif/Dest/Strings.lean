import Verif.Dest.Model
import Verif.Dest.Memory
/-
Models of `basic_string_appender`, `basic_string_maker`, `basic_sized_string_maker`
(include/strf/to_string.hpp).

`ok` parameters say whether the corresponding `std::string` operation succeeds (`true`) or throws `bad_alloc`
(`false`); `std::string::append` has the strong guarantee. The first component of a result is the state left
behind, the second tells whether an exception escaped.
-/
namespace Strf.Dest
variable {α : Type}

/-! ### string_appender -/

/-- to_string.hpp:15-95 members of `basic_string_appender`: the target string, `buf_` (64 units), `pointer_`
as an offset into `buf_`, `good_`. `end_` is always `buf_ + 64`. -/
structure Appender (α : Type) where
  str : List α
  buf : List α
  ptr : Nat
  good : Bool

namespace Appender

/-- to_string.hpp:23-27 constructor (`junk` is the uninitialised content of `buf_`). -/
def init (str junk : List α) : Appender α := { str, buf := junk, ptr := 0, good := true }

/-- to_string.hpp:57-66 `recycle()` -/
def recycleE (ok : Bool) (s : Appender α) : Appender α × Bool :=
  let p := s.ptr
  let s := { s with ptr := 0 }
  if s.good then
    if ok then ({ s with good := true, str := s.str ++ s.buf.take p }, false)
    else ({ s with good := false }, true)
  else (s, false)

/-- to_string.hpp:79-90 `do_write(str, str_len)`: two appends, `ok1` and `ok2` -/
def doWriteE (ok1 ok2 : Bool) (s : Appender α) (xs : List α) : Appender α × Bool :=
  let p := s.ptr
  let s := { s with ptr := 0 }
  if s.good then
    if ok1 then
      if ok2 then ({ s with good := true, str := s.str ++ s.buf.take p ++ xs }, false)
      else ({ s with good := false, str := s.str ++ s.buf.take p }, true)
    else ({ s with good := false }, true)
  else (s, false)

/-- to_string.hpp:68-75 `finish()` -/
def finishE (ok : Bool) (s : Appender α) : Appender α × Bool :=
  if s.good then
    if ok then ({ s with good := false, str := s.str ++ s.buf.take s.ptr }, false)
    else ({ s with good := false }, true)
  else (s, false)

/-- to_string.hpp:42-55 destructor (exceptions are swallowed) -/
def destroyE (ok : Bool) (s : Appender α) : Appender α :=
  if s.good then (if ok then { s with str := s.str ++ s.buf.take s.ptr } else s) else s

/-- destination.hpp 76–130: direct stores by the user through `buffer_ptr()` -/
def poke (s : Appender α) (xs : List α) : Option (Appender α) :=
  (storeAt s.buf s.ptr xs).map fun b => { s with buf := b, ptr := s.ptr + xs.length }

/-- to_string.hpp 18–98: the destination when no allocation fails -/
abbrev dest : Dest α (Appender α) where
  space s := s.buf.length - s.ptr
  good s := s.good
  poke := poke
  recycle s := (recycleE true s).1
  doWrite s xs := some (doWriteE true true s xs).1

end Appender

/-! ### string_maker -/

/-- to_string.hpp:97-164 members of `basic_string_maker`. `str` is the string in `string_obj_space_` (`none`: no
object was constructed there), `inited` is `string_initialized_`. -/
structure Maker (α : Type) where
  str : Option (List α)
  inited : Bool
  buf : List α
  ptr : Nat
  good : Bool

namespace Maker

/-- to_string.hpp:106-114 constructor -/
def init (junk : List α) : Maker α := { str := none, inited := false, buf := junk, ptr := 0, good := true }

/-- to_string.hpp:166-181 `recycle()`; `ok` is the outcome of the construction or append -/
def recycleE (ok : Bool) (s : Maker α) : Maker α × Bool :=
  let count := s.ptr
  let s := { s with ptr := 0 }
  if s.good then
    let s := { s with good := false }
    if ok then
      if !s.inited then ({ s with good := true, inited := true, str := some (s.buf.take count) }, false)
      else ({ s with good := true, str := s.str.map (· ++ s.buf.take count) }, false)
    else (s, true)
  else (s, false)

/-- to_string.hpp:183-202 `do_write(str, str_len)`; `ok0` is the outcome of `reserve`, `ok1`, `ok2` of the two
appends -/
def doWriteE (ok0 ok1 ok2 : Bool) (s : Maker α) (xs : List α) : Maker α × Bool :=
  if s.good then
    let count := s.ptr
    let s := { s with ptr := 0, good := false }
    if !s.inited then
      let s := { s with str := some [] }
      if ok0 then
        if ok1 then
          let s := { s with str := some ([] ++ s.buf.take count) }
          if ok2 then ({ s with str := some ([] ++ s.buf.take count ++ xs), inited := true, good := true }, false)
          else (s, true)
        else (s, true)
      else (s, true)
    else
      if ok1 then
        let s := { s with str := s.str.map (· ++ s.buf.take count) }
        if ok2 then ({ s with str := s.str.map (· ++ xs), good := true }, false)
        else (s, true)
      else (s, true)
  else (s, false)

/-- to_string.hpp:130-142 `finish()`: the string returned (`none`: exception; `ok` is the outcome of the append
or construction) -/
def finishE (ok : Bool) (s : Maker α) : Maker α × Option (List α) :=
  if s.good then
    let count := s.ptr
    let s := { s with good := false }
    if ok then
      if !s.inited then (s, some (s.buf.take count))
      else
        let s := { s with str := s.str.map (· ++ s.buf.take count) }
        (s, s.str)
    else (s, none)
  else (s, some [])

/-- to_string.hpp:121-126 destructor: destroys the string iff `string_initialized_` -/
def destroy (s : Maker α) : Maker α := if s.inited then { s with str := none, inited := false } else s

/-- destination.hpp 76–130: direct stores by the user through `buffer_ptr()` -/
def poke (s : Maker α) (xs : List α) : Option (Maker α) :=
  (storeAt s.buf s.ptr xs).map fun b => { s with buf := b, ptr := s.ptr + xs.length }

/-- to_string.hpp 100–205: the destination when no allocation fails -/
abbrev dest : Dest α (Maker α) where
  space s := s.buf.length - s.ptr
  good s := s.good
  poke := poke
  recycle s := (recycleE true s).1
  doWrite s xs := some (doWriteE true true true s xs).1

end Maker

/-! ### sized_string_maker -/

/-- to_string.hpp:204-245 members of `basic_sized_string_maker`: the string, and `pointer_`, `end_` as offsets
into it -/
structure Sized (α : Type) where
  str : List α
  ptr : Nat
  end_ : Nat
  good : Bool

namespace Sized

/-- to_string.hpp:212-218 constructor; `zero` is `(CharT)0` -/
def init (zero : α) (count : Nat) : Sized α :=
  let n := if count ≠ 0 then count else 1
  { str := List.replicate n zero, ptr := 0, end_ := n, good := true }

/-- to_string.hpp:226-234 `recycle()` (no allocation failure) -/
def recycle (zero : α) (s : Sized α) : Sized α :=
  let original := s.ptr
  let appendSize := max original 64
  { s with str := s.str ++ List.replicate appendSize zero, ptr := original, end_ := original + appendSize }

/-- destination.hpp 76–130: direct stores by the user through `buffer_ptr()`: undefined outside `[ptr, end_)` or outside the string -/
def poke (s : Sized α) (xs : List α) : Option (Sized α) :=
  if s.ptr + xs.length ≤ s.end_ then
    (storeAt s.str s.ptr xs).map fun b => { s with str := b, ptr := s.ptr + xs.length }
  else none

/-- to_string.hpp:236-240 `finish()`; `resize(n)` keeps the first `n` characters (here `n ≤ size()`) -/
def finish (s : Sized α) : List α := s.str.take s.ptr

/-- to_string.hpp 207–271: everything but `do_write` -/
abbrev core (zero : α) : Dest α (Sized α) where
  space s := s.end_ - s.ptr
  good s := s.good
  poke := poke
  recycle := recycle zero
  doWrite _ _ := none

/-- the destination; it does not override `do_write`, so the loop of destination.hpp:220-250 is used -/
abbrev dest (zero : α) : Dest α (Sized α) :=
  { core zero with doWrite := fun s xs => baseDoWrite (core zero) (xs.length + 1) s xs }

end Sized
end Strf.Dest

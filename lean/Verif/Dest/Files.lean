import Verif.Dest.Model
import Verif.Dest.Memory
/-
Models of `cfile_writer_base` (include/strf/to_cfile.hpp) and `basic_streambuf_writer`
(include/strf/to_streambuf.hpp).

The outside world is an oracle `acc : Nat → List α → List α → Nat`: on the `i`-th call, when it already holds
`file`, it accepts (at most) `acc i file xs` of the characters `xs` offered, in order, and says so.
-/
namespace Strf.Dest
variable {α : Type}

/-- to_cfile.hpp 32–34, 49–57: how many characters the world accepts, on each call, depending on what it already holds and is offered -/
abbrev World (α : Type) := Nat → List α → List α → Nat

/-- to_cfile.hpp:49-57 `wide_cfile_writer_traits::write`: `fputwc` one character at a time until one fails
(`ok k c`: does the call for the `k`-th character `c` succeed?) -/
def wideWrite (ok : Nat → α → Bool) : Nat → List α → Nat
  | k, c :: cs => if ok k c then wideWrite ok (k + 1) cs + 1 else 0
  | _, [] => 0

/-- to_cfile.hpp:76-160, to_streambuf.hpp:15-104: the members, plus the world (content and number of calls) -/
structure Writer (α : Type) where
  buf : List α
  ptr : Nat
  good : Bool
  count : Nat
  file : List α
  calls : Nat

namespace Writer

/-- to_cfile.hpp:88-97, to_streambuf.hpp:19-28 constructors (`junk`: initial content of the buffer) -/
def init (junk : List α) : Writer α := { buf := junk, ptr := 0, good := true, count := 0, file := [], calls := 0 }

/-- one call of `traits_.write` (to_cfile.hpp:32-34, 49-57) or `sputn`: the new state and the count returned -/
def send (acc : World α) (s : Writer α) (xs : List α) : Writer α × Nat :=
  let n := min (acc s.calls s.file xs) xs.length
  ({ s with file := s.file ++ xs.take n, calls := s.calls + 1 }, n)

/-- to_cfile.hpp:101-111 `recycle()`; to_streambuf.hpp:52-60 is the same -/
def recycle (acc : World α) (s : Writer α) : Writer α :=
  let count := s.ptr
  let s := { s with ptr := 0 }
  if s.good then
    let (s, inc) := send acc s (s.buf.take count)
    { s with count := s.count + inc, good := inc == count }
  else s

/-- to_cfile.hpp:115-125 `finish()` -/
def finish (acc : World α) (s : Writer α) : Writer α × Nat × Bool :=
  let g := s.good
  let s := { s with good := false }
  if g then
    let count := s.ptr
    let (s, inc) := send acc s (s.buf.take count)
    let s := { s with count := s.count + inc }
    (s, s.count, count == inc)
  else (s, s.count, g)

/-- to_cfile.hpp:129-134 `destroy()`, called by the destructor -/
def destroy (acc : World α) (s : Writer α) : Writer α :=
  if s.good then (send acc s (s.buf.take s.ptr)).1 else s

/-- to_cfile.hpp:138-150 `do_write(str, str_len)` of `cfile_writer_base` -/
def doWrite (acc : World α) (s : Writer α) (xs : List α) : Writer α :=
  let count := s.ptr
  let s := { s with ptr := 0 }
  if s.good then
    let (s, inc) := send acc s (s.buf.take count)
    let (s, inc) :=
      bif inc == count then
        let (s, inc2) := send acc s xs
        (s, inc + inc2)
      else (s, inc)
    { s with count := s.count + inc, good := inc == count + xs.length }
  else s

/-- to_streambuf.hpp:84-97 `do_write(str, str_len)` of `basic_streambuf_writer`: the second `sputn` is made
whatever the first returned -/
def doWriteSb (acc : World α) (s : Writer α) (xs : List α) : Writer α :=
  let count := s.ptr
  let s := { s with ptr := 0 }
  if s.good then
    let s := { s with good := false }
    let (s, inc1) := send acc s (s.buf.take count)
    let (s, inc2) := send acc s xs
    let inc := inc1 + inc2
    { s with count := s.count + inc, good := inc == count + xs.length }
  else s

/-- to_streambuf.hpp:67-79 `finish()` of `basic_streambuf_writer` -/
def finishSb (acc : World α) (s : Writer α) : Writer α × Nat × Bool :=
  let count := s.ptr
  let g := s.good
  let s := { s with ptr := 0, good := false }
  if g then
    let (s, inc) := send acc s (s.buf.take count)
    let s := { s with count := s.count + inc }
    (s, s.count, inc == count)
  else (s, s.count, g)

/-- destination.hpp 76–130: direct stores by the user -/
def poke (s : Writer α) (xs : List α) : Option (Writer α) :=
  (storeAt s.buf s.ptr xs).map fun b => { s with buf := b, ptr := s.ptr + xs.length }

/-- to_cfile.hpp 76–160: FILE* destination -/
abbrev cfile (acc : World α) : Dest α (Writer α) where
  space s := s.buf.length - s.ptr
  good s := s.good
  poke := poke
  recycle := recycle acc
  doWrite s xs := some (doWrite acc s xs)

/-- to_streambuf.hpp 15–104: streambuf destination -/
abbrev streambuf (acc : World α) : Dest α (Writer α) where
  space s := s.buf.length - s.ptr
  good s := s.good
  poke := poke
  recycle := recycle acc
  doWrite s xs := some (doWriteSb acc s xs)

end Writer
end Strf.Dest

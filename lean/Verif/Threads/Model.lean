import Verif.Dest.Arrays
import Mathlib.Logic.Function.Basic
/-!
# Several threads, each with its own destination

`strf::garbage_buff<CharT>()` (include/strf/destination.hpp 280–294) is one static array: all the character array destinations and discarders of a character type write
there what does not fit. Here: any number of threads, each with its own array and its own destination, and that one buffer.

A thread is any program that does to its destination what printing functions do: store a character at buffer_ptr() and advance, `recycle()`, `do_write`, `finish()`. What
it does next may depend on its own state and on all of its destination and array, but not on the garbage buffer: no function of the library reads it.
-/
namespace Strf.Threads
open Strf.Dest (Arr Loc)
variable {α ι κ : Type}

/-- destination.hpp 296–391, 441–526: a destination and the array it writes to, without the garbage buffer -/
structure Priv (α : Type) where
  arr : List α
  ptr : Loc
  end_ : Loc
  it : Loc
  good : Bool

/-- destination.hpp 296–391: with the garbage buffer it is the state of C02 and C03 -/
def Priv.on (p : Priv α) (garb : List α) : Arr α := ⟨p.arr, garb, p.ptr, p.end_, p.it, p.good⟩

/-- destination.hpp 296–391 -/
def priv (s : Arr α) : Priv α := ⟨s.arr, s.ptr, s.end_, s.it, s.good⟩

/-- destination.hpp 76–146, 206, 349–371: what is done to the destination; `pause`: something else -/
inductive Act (α : Type)
  | store (c : α)
  | recycle
  | write (xs : List α)
  | finish (zero : α)
  | pause

/-- destination.hpp 76–130, 339–347, 355–368, 373–388: its effect; `none` is undefined behaviour -/
def Act.run (s : Arr α) : Act α → Option (Arr α)
  | .store c => s.poke [c]
  | .recycle => some s.recycle
  | .write xs => s.doWrite xs
  | .finish z => (Arr.finishCstr z s).map fun r => r.1
  | .pause => some s

/-- destination.hpp 280–294 garbage_buff, and the threads that use it: what each thread does next, and the state of its program afterwards -/
abbrev Prog (α κ : Type) := κ → Priv α → Act α × κ

/-- destination.hpp 280–294: all threads: the state of their programs, their destinations, and the buffer that they share -/
structure Sys (ι κ α : Type) where
  ctl : ι → κ
  dst : ι → Priv α
  garb : List α

/-- destination.hpp 280–294: thread `i` makes one step -/
def Sys.step [DecidableEq ι] (P : ι → Prog α κ) (i : ι) (y : Sys ι κ α) : Option (Sys ι κ α) :=
  let d := P i (y.ctl i) (y.dst i)
  (d.1.run ((y.dst i).on y.garb)).map fun s => ⟨Function.update y.ctl i d.2, Function.update y.dst i (priv s), s.garb⟩

/-- destination.hpp 280–294: the threads make steps in any order -/
def Sys.run [DecidableEq ι] (P : ι → Prog α κ) : List ι → Sys ι κ α → Option (Sys ι κ α)
  | [], y => some y
  | i :: l, y => (y.step P i).bind fun y => y.run P l

/-- destination.hpp 76–391: the locations that an action writes: elements of the array of the thread, or of the garbage buffer -/
def Act.writes (p : Priv α) : Act α → List Loc
  | .store _ => [p.ptr]
  | .recycle | .pause => []
  | .write _ =>
    match p.ptr, p.end_ with
    | .user i, .user j => (List.range' i (j - i)).map .user
    | .garbage i, .garbage j => (List.range' i (j - i)).map .garbage
    | _, _ => []
  | .finish _ => [if p.good then p.ptr else p.it]

end Strf.Threads

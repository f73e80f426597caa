import Verif.Sbc.Model
import Verif.Utf.Spec
/-!
# What transcoding from and to a single-byte charset must do

Said in terms of what the bytes of the charset mean (`decode`, `isValid`; compared to the published tables in
`decode_published`), not of the tables used for encoding.
-/
namespace Strf.Sbc
open Strf.Utf (Reason)
open Strf.Charset (Event Res)

/-- The byte that stands for the character `ch`, if there is one. -/
def byteOf (I : Impl) (ch : Nat) : Option Nat := (List.range 256).find? fun b => I.isValid b && I.decode b == ch

/-- What is wrong with a source unit. -/
inductive Problem | none | invalid | unsupported
deriving DecidableEq, Repr

/-- The notification due for a unit that is followed by others, `left` units remaining in the source including it. -/
def Problem.event (p : Problem) (left ch : Nat) : List Event :=
  match p with
  | .none => []
  | .invalid => [.invalid left 1]
  | .unsupported => [.unsupported ch]

/-- Whether the flags ask to stop there. -/
def Problem.stops (p : Problem) (f : Flags) : Bool :=
  match p with
  | .none => false
  | .invalid => f.stop
  | .unsupported => f.stopUnsup

/-- The notifications for a sequence of units, in order. -/
def notices (prob : Nat → Problem) (left : Nat) : List Nat → List Event
  | [] => []
  | ch :: t => (prob ch).event left ch ++ notices prob (left - 1) t

/-- `r` is a correct result of transcoding `src` into at most `room` units when each source unit `ch` is to become the
unit `unit ch` and has the problem `prob ch`. -/
def Outcome (unit : Nat → Nat) (prob : Nat → Problem) (f : Flags) (room : Nat) (src : List Nat) (r : Res) : Prop :=
  ∃ done todo, src = done ++ todo ∧ r.out = done.map unit ∧ r.rest = todo ∧ done.length ≤ room ∧
    (∀ ch ∈ done, (prob ch).stops f = false) ∧ r.events = notices prob src.length (done ++ todo.take 1) ∧
    match r.why with
    | .completed => todo = []
    | .insufficient => done.length = room ∧ ∃ ch t, todo = ch :: t ∧ (prob ch).stops f = false
    | .invalid => ∃ ch t, todo = ch :: t ∧ prob ch = .invalid ∧ f.stop = true
    | .unsupported => ∃ ch t, todo = ch :: t ∧ prob ch = .unsupported ∧ f.stopUnsup = true

/-- Bytes: invalid if the charset does not define them. -/
def byteProblem (I : Impl) (b : Nat) : Problem := if I.isValid b then .none else .invalid

/-- Code points: fine if there is a byte for them (or for U+FFFD, which is a request for the replacement character);
otherwise unsupported if they are characters, and invalid if not. -/
def charProblem (I : Impl) (lax : Bool) (ch : Nat) : Problem :=
  if (byteOf I ch).isSome ∨ ch = 0xFFFD then .none
  else if Utf.Scalar lax ch then .unsupported else .invalid

/-- The byte for a code point, or '?'. -/
def byteOrQuestion (I : Impl) (ch : Nat) : Nat := (byteOf I ch).getD 0x3F

end Strf.Sbc

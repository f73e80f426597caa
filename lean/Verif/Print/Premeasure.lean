import Verif.Width.Props
/-!
# Model of include/strf/detail/premeasurements.hpp

`none` is undefined behaviour (signed overflow of the `int32_t` in a `width_t`).
Simplification: sizes are natural numbers, i.e. the sums of sizes are taken to be below 2^64.
-/
namespace Strf.Print
open Strf.Width

/-- premeasurements.hpp 18–69 width_accumulator<true>: `limit_` and `width_` -/
structure Acc where
  limit : Int
  width : Int
deriving DecidableEq, Repr

/-- premeasurements.hpp 28–31, 67–68: the constructor with a limit; without one it is `width_max` -/
def Acc.init (limit : Int) : Acc := ⟨limit, 0⟩
/-- premeasurements.hpp 67–68 the default constructor -/
def Acc.default : Acc := ⟨wmax, 0⟩

/-- premeasurements.hpp 33–36 add_width -/
def Acc.addWidth (a : Acc) (w : Int) : Option Acc :=
  (Width.add a.width w).map fun x => { a with width := x }

/-- premeasurements.hpp 37–44 checked_add_width -/
def Acc.checkedAddWidth (a : Acc) (w : Int) : Option Acc :=
  if w > 0 ∧ a.width < a.limit then
    match Width.sub a.limit a.width with
    | none => none
    | some d => if w ≥ d then some { a with width := a.limit } else a.addWidth w
  else some a

/-- premeasurements.hpp 45–48 saturate_width -/
def Acc.saturate (a : Acc) : Acc := { a with width := a.limit }
/-- premeasurements.hpp 49–52 accumulated_width -/
def Acc.accumulated (a : Acc) : Int := if a.width ≤ a.limit then a.width else a.limit
/-- premeasurements.hpp 53–56 remaining_width -/
def Acc.remaining (a : Acc) : Option Int := if a.width ≤ a.limit then Width.sub a.limit a.width else some 0
/-- premeasurements.hpp 57–60 remaining_width_greater_than -/
def Acc.remainingGreater (a : Acc) (w : Int) : Option Bool := (Width.add a.width w).map fun x => decide (x < a.limit)
/-- premeasurements.hpp 61–64 has_remaining_width -/
def Acc.hasRemaining (a : Acc) : Bool := decide (a.width < a.limit)

/-- premeasurements.hpp 190–227 premeasurements<SizePresence, WidthPresence>: `none` if the size or the width is not demanded
(size_accumulator<false>, width_accumulator<false>) -/
structure Pre where
  size : Option Nat
  acc : Option Acc
deriving DecidableEq, Repr

/-- premeasurements.hpp 229–231: no_premeasurements -/
def Pre.nothing : Pre := ⟨none, none⟩

/-- premeasurements.hpp 133–139, 166–169 add_size -/
def Pre.addSize (p : Pre) (n : Nat) : Pre := { p with size := p.size.map (· + n) }

/-- premeasurements.hpp 33–36, 82–85 add_width -/
def Pre.addWidth (p : Pre) (w : Int) : Option Pre :=
  match p.acc with
  | none => some p
  | some a => (a.addWidth w).map fun a => { p with acc := some a }

/-- premeasurements.hpp 37–44, 86–89 checked_add_width -/
def Pre.checkedAddWidth (p : Pre) (w : Int) : Option Pre :=
  match p.acc with
  | none => some p
  | some a => (a.checkedAddWidth w).map fun a => { p with acc := some a }

/-- premeasurements.hpp 53–56, 97–100 remaining_width -/
def Pre.remaining (p : Pre) : Option Int :=
  match p.acc with
  | none => some 0
  | some a => a.remaining

/-- premeasurements.hpp 57–60, 101–104 remaining_width_greater_than -/
def Pre.remainingGreater (p : Pre) (w : Int) : Option Bool :=
  match p.acc with
  | none => some false
  | some a => a.remainingGreater w

/-- premeasurements.hpp 61–64, 105–108 has_remaining_width -/
def Pre.hasRemaining (p : Pre) : Bool :=
  match p.acc with
  | none => false
  | some a => a.hasRemaining

end Strf.Print

import Verif.Ranges.Spec
import Verif.Print.Ranges
import Verif.Lib.Model
/-!
# Model: making ranges, and going through them with iterators (include/strf/detail/printable_types/range.hpp)

Print/Ranges.lean takes the elements as a list. Here they are what is between two iterators, positions in a sequence; dereferencing an iterator outside of it is
undefined behaviour (`none`). The function given to `range` may have a state `ω` (what it captures by reference): it is called again each time that the range is gone
through. Simplified: iterators are positions in one sequence that printing does not change.
-/
namespace Strf.Ranges
open Strf.Print (Item Pre WCalc addSepWidth)
open Strf.Dest (Dest)

/-- range.hpp 15–58 range_p, separated_range_p, transformed_range_p, separated_transformed_range_p, without the separator and the function -/
structure Range (α : Type) where
  mem : List α
  first : Nat
  last : Nat

/-- range.hpp 701–834, 836–926: the functions that make ranges: the iterators that they keep. For arrays `&array[0]` and
`&array[0] + N`. -/
def Given.range {α : Type} : Given α → Range α
  | .iterators seq b e => ⟨seq, b, e⟩
  | .container seq => ⟨seq, 0, seq.length⟩
  | .initList seq => ⟨seq, 0, seq.length⟩
  | .array seq => ⟨seq, 0, 0 + seq.length⟩

/-- range.hpp 707–712, 736–759, 768–774, 802–834, 881–926, `str_ssize(sep)`: the separator, of which the characters are read up to the zero -/
def separator (mem : List Nat) (p : Nat) : Option (List Nat) := (Lib.strLength mem p).map fun n => (mem.drop p).take n

/-- range.hpp 817–825: in fmt_separated_range(std::initializer_list<T>, sep) a `std::size_t` initializes a `std::ptrdiff_t` in braces, a narrowing conversion, which is
ill-formed; all other functions compile. -/
def compiles {α : Type} (fmt separated : Bool) : Given α → Bool
  | .initList _ => !(fmt && separated)
  | _ => true

variable {σ α ω : Type}

/-- range.hpp 142–147, 214–221, 308–313, 393–400, 480–485, 553–560: the loop of do_premeasurements_, from iterator `it`; also how many elements it measures.
`fuel`: more than the iterators in the sequence from there on. -/
def measureLoop (op : ω → α → ω × Item σ) (mem : List α) (last : Nat) : Nat → Nat → ω → Pre → Option (Pre × Nat × ω)
  | 0, _, _, _ => none
  | fuel + 1, it, w, p =>
    if it ≠ last ∧ (p.hasRemaining || p.size.isSome) then
      match mem[it]? with
      | none => none
      | some x => ((op w x).2.make p).bind fun q => (measureLoop op mem last fuel (it + 1) (op w x).1 q.1).map fun z => (z.1, z.2.1 + 1, z.2.2)
    else some (p, 0, w)

/-- range.hpp 154–156, 324–326, 492–494 operator() of the ranges without separator -/
def printLoop (D : Dest Nat σ) (op : ω → α → ω × Item σ) (mem : List α) (last : Nat) : Nat → Nat → ω → σ → Option (σ × ω)
  | 0, _, _, _ => none
  | fuel + 1, it, w, s =>
    if it ≠ last ∧ D.good s = true then
      match mem[it]? with
      | none => none
      | some x => ((op w x).2.print s).bind fun s => printLoop D op mem last fuel (it + 1) (op w x).1 s
    else some (s, w)

/-- range.hpp 245–248, 428–431, 584–587: `while (++it != end && dst.good())`; `it` is already incremented -/
def sepLoop (D : Dest Nat σ) (sep : List Nat) (op : ω → α → ω × Item σ) (mem : List α) (last : Nat) : Nat → Nat → ω → σ → Option (σ × ω)
  | 0, _, _, _ => none
  | fuel + 1, it, w, s =>
    if it ≠ last ∧ D.good s = true then
      (Dest.write D s sep).bind fun s =>
      match mem[it]? with
      | none => none
      | some x => ((op w x).2.print s).bind fun s => sepLoop D sep op mem last fuel (it + 1) (op w x).1 s
    else some (s, w)

/-- a printer whose elements come from a function with a state: how it is measured (its constructor) and how it prints -/
structure Printer (σ ω : Type) where
  measure : ω → Pre → Option (Pre × ω)
  print : ω → σ → Option (σ × ω)

/-- range.hpp 99–157 range_printer (the function is the identity), 252–327 fmt_range_printer (it gives the element the format), 435–495 transformed_range_printer -/
def rangePrinter (D : Dest Nat σ) (op : ω → α → ω × Item σ) (r : Range α) : Printer σ ω where
  measure w p :=
    if p.idle then some (p, w)
    else (measureLoop op r.mem r.last (r.mem.length + 1) r.first w p).map fun z => (z.1, z.2.2)
  print w s := printLoop D op r.mem r.last (r.mem.length + 1) r.first w s

/-- range.hpp 242–249, 424–432, 581–588 operator() of the ranges with separator -/
def sepPrint (D : Dest Nat σ) (sep : List Nat) (op : ω → α → ω × Item σ) (r : Range α) (w : ω) (s : σ) : Option (σ × ω) :=
  if r.first ≠ r.last then
    match r.mem[r.first]? with
    | none => none
    | some x => ((op w x).2.print s).bind fun s => sepLoop D sep op r.mem r.last (r.mem.length + 1) (r.first + 1) (op w x).1 s
  else some (s, w)

/-- range.hpp 159–250 separated_range_printer -/
def separatedPrinter (D : Dest Nat σ) (W : WCalc) (sep : List Nat) (op : ω → α → ω × Item σ) (r : Range α) : Printer σ ω where
  measure w p :=
    if p.idle then some (p, w)
    else (measureLoop op r.mem r.last (r.mem.length + 1) r.first w p).bind fun z =>
      if z.2.1 < 2 ∨ (z.1.size.isNone && !z.1.hasRemaining) then some (z.1, z.2.2)
      else (addSepWidth W sep z.2.1 z.1).map fun p => (p.addSize ((z.2.1 - 1) * sep.length), z.2.2)
  print := sepPrint D sep op r

/-- range.hpp 329–433 fmt_separated_range_printer, 497–589 sep_transformed_range_printer -/
def fmtSeparatedPrinter (D : Dest Nat σ) (W : WCalc) (sep : List Nat) (op : ω → α → ω × Item σ) (r : Range α) : Printer σ ω where
  measure w p :=
    if p.idle then some (p, w)
    else (measureLoop op r.mem r.last (r.mem.length + 1) r.first w p).bind fun z =>
      if z.2.1 < 2 then some (z.1, z.2.2)
      else (if z.1.hasRemaining then addSepWidth W sep z.2.1 z.1 else some z.1).map fun p => (p.addSize ((z.2.1 - 1) * sep.length), z.2.2)
  print := sepPrint D sep op r

/-- a function without state -/
def pure (f : α → Item σ) : Unit → α → Unit × Item σ := fun w x => (w, f x)

/-- The printer, when the function has no state, as an item. -/
def Printer.item (P : Printer σ Unit) : Item σ where
  make p := (P.measure () p).map fun z => (z.1, fun s => (P.print () s).map (·.1))

end Strf.Ranges

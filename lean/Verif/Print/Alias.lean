import Verif.Print.Policies
import Verif.Dest.Finish
/-!
# Printing a string to itself: strf::append(str)(..., str, ...)

A printer of a string keeps two pointers to its characters (printable_types/string.hpp 602–603). If the string is the one that
the appender appends to, they are good until std::string allocates other memory for the characters.
-/
namespace Strf.Print
open Strf.Dest (Dest Appender)

/-- printable_types/string.hpp 1734: the arguments are converted to views when the call begins (`forwarded_type`), so the views
have the pointers that str.data() returns then. They can be read as long as str has not allocated: that is, as long as its
size has not exceeded the capacity `cap` that it had then. `none`: it has already allocated since. (C++20: `append` and `reserve` allocate if and
only if the capacity is too small. Before C++20 `reserve` may also make the capacity smaller.) -/
def readable (cap : Option Nat) (s : Appender Nat) : Bool :=
  match cap with
  | none => false
  | some c => decide (s.str.length ≤ c)

/-- output_buffer_functions.hpp 40–46 and destination.hpp 161–177: `write` of a view of `own.length` units of str itself, and to_string.hpp 79–90 `do_write`, which appends the
units of the buffer to str before it reads the view. `none`: the pointers are no longer good. The append of a part of str to
str itself is defined in std::string, also if it must allocate. -/
def ownWrite (cap : Option Nat) (own : List Nat) (s : Appender Nat) : Option (Appender Nat) :=
  if own.length = 0 then some s
  else if own.length ≤ s.buf.length - s.ptr then
    if readable cap s then s.poke own else none
  else if s.good then
    if readable cap (Appender.recycleE true s).1 then some (Appender.doWriteE true true s own).1 else none
  else some (Appender.doWriteE true true s own).1

/-- an argument: `n` units of str from the position `a` on (a std::string_view, or str itself with a precision), or something else;
str itself is `own a n` with all of it; `padded l r fill a n`: the same aligned, with `l` and `r` fill characters -/
inductive Part where
  | own (a n : Nat)
  | padded (l r fill a n : Nat)
  | other (it : Item (Appender Nat))

/-- a part of a text -/
def slice (own : List Nat) (a n : Nat) : List Nat := (own.drop a).take n

/-- string.hpp 753–764: aligned_strcpy_printer, for a fill character of one unit (utf.hpp and single_byte_charsets.hpp: encode_fill is then
write_fill) -/
def paddedWrite (cap : Option Nat) (l r fill : Nat) (own : List Nat) (s : Appender Nat) : Option (Appender Nat) :=
  (if l > 0 then Dest.writeFill Appender.dest s l fill else some s).bind fun s =>
    (ownWrite cap own s).bind fun s => if r > 0 then Dest.writeFill Appender.dest s r fill else some s

/-- The arguments as items: `plain` is the printer of an unrelated string (string.hpp 527–603), which premeasures
the same as that of an equal part of str. Simplification: str is printed in its own charset; and the counts of fill characters are given, not calculated from the width. -/
def Part.item (cap : Option Nat) (own : List Nat) (plain : List Nat → Item (Appender Nat)) : Part → Item (Appender Nat)
  | .own a n => ⟨fun p => ((plain (slice own a n)).make p).map fun r => (r.1, ownWrite cap (slice own a n))⟩
  | .padded l r c a n => ⟨fun p => ((plain (List.replicate l c ++ slice own a n ++ List.replicate r c)).make p).map fun q =>
      (q.1, paddedWrite cap l r c (slice own a n))⟩
  | .other it => it

/-- to_string.hpp 287–298 `create()` and `create(size)`: with a size that is not zero, there is `reserve(str.size() + size)`. -/
def afterCreate (cap len n : Nat) : Option Nat := if n = 0 ∨ len + n ≤ cap then some cap else none

/-- strf::append(str)(args...), or with `.reserve(n)` if n ≠ 0: to_string.hpp 331–338 and reserve_policies.hpp 91–143. The
string is `start`, with capacity `cap`. -/
def appendOwn (start : List Nat) (cap n : Nat) (plain : List Nat → Item (Appender Nat)) (eol : Bool) (ps : List Part)
    (junk : List Nat) : Option (List Nat) :=
  (printPlain Appender.dest eol (ps.map (Part.item (afterCreate cap start.length n) start plain)) (Appender.init start junk)).map
    fun s => (Appender.destroyE true (Appender.finishE true s).1).str

/-- strf::append(str).reserve_calc()(args...): reserve_policies.hpp 145–205. The printers are made first, with the pointers that they keep; then
the size that they calculated is reserved; then they print. -/
def appendOwnCalc (start : List Nat) (cap : Nat) (plain : List Nat → Item (Appender Nat)) (eol : Bool) (ps : List Part)
    (order : List Nat) (junk : List Nat) : Option (List Nat) :=
  (makeIn (ps.map (Part.item none start plain)) order ⟨some 0, none⟩).bind fun r =>
    (printCalc Appender.dest eol
      (ps.map (Part.item (afterCreate cap start.length (r.1.accSize + eol.toNat)) start plain)) order
      (fun _ => Appender.init start junk)).map fun s => (Appender.destroyE true (Appender.finishE true s).1).str

/-- to_string.hpp 340–347 strf::assign(str)(args...): the string is cleared when `assign` is called, so the views of it that
the call makes are empty. -/
def assignOwn (_start : List Nat) (cap n : Nat) (plain : List Nat → Item (Appender Nat)) (eol : Bool) (ps : List Part)
    (junk : List Nat) : Option (List Nat) :=
  appendOwn [] cap n plain eol ps junk

end Strf.Print

import Verif.Format.StringModel
import Verif.Print.CharProps
/-!
# Format functions of characters and booleans

The specification of a chain, and the model of the format specifier classes: include/strf/detail/format_functions.hpp
(quantity, alignment), include/strf/detail/printable_types/char.hpp 279–387, bool.hpp 128–175.
-/
namespace Strf.Format
open Strf.IntPrinter (AlignFmt)
open Strf.IntDigits.Spec (Lettercase)
open Strf.Print (Item Cs Calc Charset charItem fmtCharItem convCharItem fmtConvCharItem boolItem fmtBoolItem padded Meaning)
open Strf.Dest (Dest)

/-! ## Specification -/

/-- the format functions of characters -/
inductive CharCall
  /-- `.multi(count)`: the character is printed `count` times; not at all if it is negative -/ | multi (count : Int)
  | align (a : AlignCall)
deriving DecidableEq, Repr

namespace CharCall

def count? : CharCall → Option Int
  | .multi n => some n
  | _ => none

def align? : CharCall → Option AlignCall
  | .align a => some a
  | _ => none

end CharCall

/-- how many times the character is to be printed -/
def countOf (cs : List CharCall) : Nat := (last CharCall.count? 1 cs).toNat
/-- the alignment functions among the calls -/
def charAlignCalls (cs : List CharCall) : List AlignCall := cs.filterMap CharCall.align?
/-- the alignment asked for -/
def charAlign (cs : List CharCall) : AlignFmt :=
  ⟨fillOf (charAlignCalls cs), alignOf (charAlignCalls cs), widthOf (charAlignCalls cs)⟩

/-- the code units of a character: itself, or of a `char32_t` those in the charset of the destination -/
def charUnits (enc : Nat → List Nat) (S T : CharT) (u : Nat) : List Nat := if S = T then [u] else enc u

/-- the charset in which the width of the character is calculated: that of its character type; a `char32_t` for a
destination of another character type is taken for UTF-32 -/
def charCs (F : StringFacets) (S T : CharT) : Cs := if S = T then (F.charset T).name.cs else .utf .utf32

/-- the text and width of `count` times a character with `n` fill characters; widths saturate at the greatest width -/
def charMeaning (enc : Nat → List Nat) (a : AlignFmt) (n count : Nat) (units : List Nat) (w : Int) : Meaning :=
  ⟨padded enc a n (List.replicate count units).flatten, min Width.wmax (w * count) + n * 65536,
    min Width.wmax (w * count) + n * 65536, min Width.wmax (w * count) + n * 65536⟩

/-! ## Model -/

/-- strf_def.hpp 368–382 safe_cast_size_t -/
def safeCastSize (n : Int) : Nat := if n ≥ 0 then n.toNat else 0

/-- format_functions.hpp, char.hpp 283–290, 335–342; a value_and_format of a character: quantity_format_specifier (283–325) and alignment -/
structure CharVal where
  count : Nat
  align : Option AlignFmt
deriving DecidableEq, Repr

/-- `fmt(x)`: format_functions.hpp 325 -/
def CharVal.init : CharVal := ⟨1, none⟩

/-- format_functions.hpp 304–311 multi -/
def CharVal.step (v : CharVal) : CharCall → CharVal
  | .multi n => { v with count := safeCastSize n }
  | .align a => { v with align := alignStep v.align a }

/-- value_and_format.hpp, format_functions.hpp 283–325: `fmt(x).f().g()…` -/
def charChain (cs : List CharCall) : CharVal := cs.foldl CharVal.step .init

/-- static_cast<CharT>(arg.value()), char.hpp 41: from the character type `S` to `T`; `signed`: `S` is signed -/
def castUnit (signed : Bool) (S T : CharT) (u : Nat) : Nat :=
  ((if signed ∧ u ≥ 2 ^ (8 * S.size - 1) then (u : Int) - 2 ^ (8 * S.size) else u) % 2 ^ (8 * T.size)).toNat

variable {σ : Type}

/-- char.hpp 289–308 and 341–372: a character without format. `none`: it does not compile (297). -/
def rawCharItem (D : Dest Nat σ) (F : StringFacets) (S T : CharT) (signed : Bool) (u : Nat) : Option (Item σ) :=
  if S = T then some (charItem D (F.widthCalc.charWidth signed (F.charset T).name.cs u) u)
  else if S = .char32 then
    some (convCharItem D ((F.charset T).name.charset D) (F.widthCalc.charWidth false (.utf .utf32) u) u)
  else none

/-- char.hpp 310–319 and 374–386: a character with format. The character types are not compared; the character is cast
(41). `signed` and `signedT`: `S` and `T` are signed. get_alignment_format() of a value without alignment is the default one
(format_functions.hpp 238). -/
def CharVal.item (D : Dest Nat σ) (F : StringFacets) (S T : CharT) (signed signedT : Bool) (v : CharVal) (u : Nat) : Item σ :=
  let a := v.align.getD AlignFmt.dflt
  if S = .char32 ∧ T ≠ .char32 then
    fmtConvCharItem ((F.charset T).name.charset D) (F.widthCalc.charWidth false (.utf .utf32) u) a (CInt.i64 v.count) u
  else
    fmtCharItem D ((F.charset T).name.charset D) (F.widthCalc.charWidth signedT (F.charset T).name.cs (castUnit signed S T u)) a
      (CInt.i64 v.count) (castUnit signed S T u)

/-- bool.hpp 128–175: a boolean, without format or with alignment functions -/
def boolChainItem (D : Dest Nat σ) (C : Charset σ) (lc : Lettercase) (as : Option (List AlignCall)) (x : Bool) : Item σ :=
  match as with
  | none => boolItem D lc x
  | some as => fmtBoolItem D C lc ((alignChain as).getD AlignFmt.dflt) x

end Strf.Format

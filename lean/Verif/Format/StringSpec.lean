import Verif.Format.Spec
import Verif.Print.StringProps
/-!
# What a chain of format functions of a string asks for

docs/ref_printable_types.adoc (strings), docs/ref_format_functions.adoc. Nothing here refers to the code, except for the
names of the charsets.
-/
namespace Strf.Format
open Strf.IntPrinter (AlignFmt)
open Strf.Print (Cs Calc Policy Meaning padded)

/-- the charsets of strf -/
inductive CsName
  | utf (e : Utf.Enc)
  | sbc (i : Fin 25)
deriving DecidableEq, Repr

/-- the charset -/
def CsName.cs : CsName → Cs
  | .utf e => .utf e
  | .sbc i => .sbc (Sbc.all.get (i.cast (by decide)))

/-- the size of its code units -/
def CsName.unitSize : CsName → Nat
  | .utf .utf8 => 1
  | .utf .utf16 => 2
  | .utf .utf32 => 4
  | .sbc _ => 1

/-- the character types; `wchar_t` has two or four bytes -/
inductive CharT
  | char | char8 | char16 | char32 | wchar (four : Bool)
deriving DecidableEq, Repr

/-- sizeof -/
def CharT.size : CharT → Nat
  | .char | .char8 => 1
  | .char16 => 2
  | .char32 => 4
  | .wchar four => if four then 4 else 2

/-- a string of that character type -/
def CharT.Units (T : CharT) (src : List Nat) : Prop := ∀ u ∈ src, u < 2 ^ (8 * T.size)

instance (T : CharT) (src : List Nat) : Decidable (T.Units src) := by unfold CharT.Units; infer_instance

/-- a charset as an argument of a format function or as a facet: known at compile time or not -/
structure CharsetArg where
  name : CsName
  isStatic : Bool
deriving DecidableEq, Repr

/-- the format functions of strings; widths in 1/65536 of a column -/
inductive StringCall
  /-- `.p(w)` -/ | p (w : Int)
  /-- `.transcode()`, `.transcode(charset)`, and their aliases -/ | transcode (cs : Option CharsetArg)
  /-- `.sani()`, `.sani(charset)`, and their aliases -/ | sani (cs : Option CharsetArg)
  /-- `.unsafe_transcode()`, `.unsafe_transcode(charset)` -/ | unchecked (cs : Option CharsetArg)
  | align (a : AlignCall)
deriving DecidableEq, Repr

namespace StringCall

def precision? : StringCall → Option Int
  | .p w => some w
  | _ => none

def policy? : StringCall → Option Policy
  | .transcode _ => some .saniOnlyIfDifferent
  | .sani _ => some .saniUnconditionally
  | .unchecked _ => some .unchecked
  | _ => none

def charset? : StringCall → Option CharsetArg
  | .transcode cs => cs
  | .sani cs => cs
  | .unchecked cs => cs
  | _ => none

def align? : StringCall → Option AlignCall
  | .align a => some a
  | _ => none

end StringCall

/-- the precision given last, if any -/
def precisionOf (cs : List StringCall) : Option Int := last (fun c => c.precision?.map some) none cs
/-- what to do with the text -/
def policyOf (cs : List StringCall) : Policy := last StringCall.policy? .noTranscode cs
/-- the charset of the string: the one given last, or the facet for its character type -/
def charsetOf (facet : CharsetArg) (cs : List StringCall) : CharsetArg := last StringCall.charset? facet cs
/-- the alignment functions among the calls -/
def stringAlignCalls (cs : List StringCall) : List AlignCall := cs.filterMap StringCall.align?
/-- the alignment asked for -/
def stringAlign (cs : List StringCall) : AlignFmt :=
  ⟨fillOf (stringAlignCalls cs), alignOf (stringAlignCalls cs), widthOf (stringAlignCalls cs)⟩

/-- the text of (what is kept of) a string: itself if nothing is said, or if the charsets are the same and it is to be
transcoded without sanitising; else its characters in the charset of the destination, with U+FFFD for ill-formed sequences -/
def textOf (policy : Policy) (s d : CsName) (x : List Nat) : List Nat :=
  match policy with
  | .noTranscode => x
  | .saniOnlyIfDifferent => if s = d then x else s.cs.textIn d.cs x
  | .saniUnconditionally | .unchecked => s.cs.textIn d.cs x

/-- what is kept of a string: all of it without precision, else the longest beginning that fits -/
def KeptOf (c : Calc) (s : Cs) (precision : Option Int) (src x : List Nat) : Prop :=
  match precision with
  | none => x = src
  | some p => c.Kept s p src x

/-- the meaning (Print/Item.lean) of a text of width `w` with `n` fill characters: the measured width is exact up to the
limit; a string without precision is measured up to the limit (or the width of the alignment) only -/
def stringMeaning (enc : Nat → List Nat) (a : AlignFmt) (precise : Bool) (n : Nat) (text : List Nat) (w : Int) : Meaning :=
  ⟨padded enc a n text, w + n * 65536, max (max 0 a.width) (w + n * 65536),
    if precise then w + n * 65536 else max 0 a.width + 131071⟩

/-- `strf::sani(str).p(3) > 10` and then `.transcode(utf8)` -/
example : policyOf [.sani none, .p 196608, .align (.right 655360), .transcode (some ⟨.utf .utf8, true⟩)] = .saniOnlyIfDifferent ∧
    precisionOf [.sani none, .p 196608, .align (.right 655360), .transcode (some ⟨.utf .utf8, true⟩)] = some 196608 ∧
    charsetOf ⟨.sbc 0, true⟩ [.sani none, .p 196608] = ⟨.sbc 0, true⟩ := by decide

end Strf.Format

import Verif.Format.StringSpec
import Verif.Sbc.Props
/-!
# What `strf::transcode` between two charsets must do

docs/ref_transcoding.adoc and the comments of include/strf/detail/facets/charset.hpp. The reading of UTF sources is that of
Utf/Spec.lean, the meaning of the bytes of the single-byte charsets that of Sbc/Spec.lean. Nothing here refers to transcoders,
pivot buffers or destinations.
-/
namespace Strf.Transcode
open Strf.Format (CsName)
open Strf.Utf (Reason)
open Strf.Sbc (Flags)

/-- the single-byte charset of that number -/
def sbcOf (i : Fin 25) : Sbc.Impl := Sbc.all.get (i.cast (by decide))

/-- the values of the code units of a charset -/
def Units : CsName → List Nat → Prop
  | .utf e, src => Utf.Units e src
  | .sbc _, src => ∀ b ∈ src, b < 256

/-- a character of the source, or an ill-formed sequence (then `char` is U+FFFD): it takes `size` units -/
structure Mark where
  char : Nat
  size : Nat
  bad : Bool
deriving DecidableEq, Repr

/-- the source `src` in the charset reads as `ms`; `lax`: surrogates are taken for characters -/
def Marks (lax : Bool) : CsName → List Nat → List Mark → Prop
  | .utf e, src, ms => ∃ its, Utf.Parses e lax src its ∧ ms = its.map fun i => ⟨i.char, i.size e, i.isBad⟩
  | .sbc i, src, ms => ms = src.map fun b => if (sbcOf i).isValid b then ⟨(sbcOf i).decode b, 1, false⟩ else ⟨0xFFFD, 1, true⟩

/-- the source units taken by marks -/
def extent (ms : List Mark) : Nat := (ms.map Mark.size).sum

/-- the units of a character in a charset: its encoding form; in a single-byte charset the byte for it, or '?' -/
def units : CsName → Nat → List Nat
  | .utf e, c => Utf.encode e c
  | .sbc i, c => [Sbc.byteOrQuestion (sbcOf i) c]

/-- there is a way to write it (U+FFFD asks for the replacement character) -/
def supported : CsName → Nat → Bool
  | .utf _, _ => true
  | .sbc i, c => (Sbc.byteOf (sbcOf i) c).isSome || c == 0xFFFD

/-- the text of marks in a charset -/
def text (d : CsName) (ms : List Mark) : List Nat := ms.flatMap fun m => units d m.char

/-- the reason, if any, for which the flags ask to stop before `m` -/
def stopAt (f : Flags) (d : CsName) (m : Mark) : Option Reason :=
  if m.bad then (if f.stop then some .invalid else none)
  else if supported d m.char then none
  else if f.stopUnsup then some .unsupported else none

/-- what is to be converted -/
def wanted (f : Flags) (d : CsName) (ms : List Mark) : List Mark := ms.takeWhile fun m => (stopAt f d m).isNone

/-- all marks before `todo` have been converted to `out`; the place where `todo` begins in the source is said by `stale` (the
source from stale_src_ptr on) and u32dist: that many characters after it -/
def Reached (f : Flags) (d : CsName) (src : List Nat) (ms todo : List Mark) (out stale : List Nat) (u32dist : Nat) : Prop :=
  ∃ done near, ms = done ++ near ++ todo ∧ (∀ m ∈ done ++ near, stopAt f d m = none) ∧ out = text d (done ++ near) ∧
    stale = src.drop (extent done) ∧ u32dist = near.length

/-- the characters for which strf is known to be wrong (C23) do not occur: six of windows-1254 and one of windows-1258; and, if
`classify`, those of U+E000–U+FFFF, which the conversion from UTF-32 takes for invalid unless surrogates are allowed. It does not
matter from a charset to itself. -/
def Spared (classify : Bool) (f : Flags) (s d : CsName) (ms : List Mark) : Prop :=
  match d with
  | .utf _ => True
  | .sbc j => s = .sbc j ∨ ∀ m ∈ ms, ¬ Sbc.Defect (sbcOf j) m.char ∧ (classify = true → s = .utf .utf32 → Sbc.Fair f m.char)

/-- the conversion ends in one of four ways; `full m` says that there is no room for `m` -/
def Converts (f : Flags) (d : CsName) (src : List Nat) (ms : List Mark) (full : Mark → Prop) (out stale : List Nat)
    (u32dist : Nat) (why : Reason) : Prop :=
  ∃ todo, Reached f d src ms todo out stale u32dist ∧
    match why with
    | .completed => u32dist = 0 ∧ todo = []
    | .invalid => u32dist = 0 ∧ ∃ m t, todo = m :: t ∧ stopAt f d m = some .invalid
    | .unsupported => ∃ m t, todo = m :: t ∧ stopAt f d m = some .unsupported
    | .insufficient => ∃ m t, todo = m :: t ∧ stopAt f d m = none ∧ full m

/-- the conversion to at most `room` units -/
def ConvertsIn (f : Flags) (d : CsName) (src : List Nat) (ms : List Mark) (room : Nat) (out stale : List Nat)
    (u32dist : Nat) (why : Reason) : Prop :=
  out.length ≤ room ∧
    Converts f d src ms (fun m => room < out.length + (units d m.char).length) out stale u32dist why

/-- "é", then a byte that is not UTF-8, then "€" -/
example : Marks false (.utf .utf8) [0xC3, 0xA9, 0xFF, 0xE2, 0x82, 0xAC] [⟨0xE9, 2, false⟩, ⟨0xFFFD, 1, true⟩, ⟨0x20AC, 3, false⟩] :=
  ⟨[.ch 0xE9, .bad 1, .ch 0x20AC], by
    have h := Utf.parses_items (e := .utf8) (lax := false) [0xC3, 0xA9, 0xFF, 0xE2, 0x82, 0xAC] (by decide)
    have e : Utf.items .utf8 false [0xC3, 0xA9, 0xFF, 0xE2, 0x82, 0xAC] = [.ch 0xE9, .bad 1, .ch 0x20AC] := by decide +kernel
    rwa [e] at h, rfl⟩

end Strf.Transcode

import Verif.Transcode.Spec
import Verif.Format.StringModel
/-!
# Model of find_transcoder and of the functions transcode, decode_encode, … with two charsets

include/strf/detail/facets/charset.hpp 322–710, 776–1830; utf.hpp 235–1365; single_byte_charsets.hpp 30–53, 2835–3110.
The charsets are those of strf: `static_charset<CharT, id>` and the `dynamic_charset<CharT>` made from it by to_dynamic().
-/
namespace Strf.Transcode
open Strf.Format (CsName CharT CharsetArg)
open Strf.Utf (Reason)
open Strf.Sbc (Flags)
open Strf.Charset (Func SizeFunc DERes DEPtr)
open Strf.Dest (Dest)

/-- utf.hpp 235–870, single_byte_charsets.hpp 33–53: a transcoder: static_transcoder<…, src, dst>, or the dynamic_transcoder made from it -/
structure Tr where
  src : CsName
  dst : CsName
deriving DecidableEq, Repr

/-- the specialisations of static_transcoder: utf.hpp 235–870, single_byte_charsets.hpp 33–53 -/
def hasSpec : CsName → CsName → Bool
  | .utf _, .utf _ => true
  | .sbc i, .sbc j => i == j
  | .sbc _, .utf e => e == .utf32
  | .utf e, .sbc _ => e == .utf32

/-- get_csid_utf<T>, charset.hpp 155–181 -/
def utfOf (T : CharT) : CsName :=
  match T.size with
  | 1 => .utf .utf8
  | 2 => .utf .utf16
  | _ => .utf .utf32

/-- `cs.find_transcoder_to(tag<T>{}, id)`, where the code units of `cs` are of type `S`; `none`: there is no such overload.
utf.hpp 998–1029, 1139–1170, 1307–1338 (all types); single_byte_charsets.hpp 2841–2895, 3010–3039, 3100–3109 (no overload for
char16_t and char32_t in a static charset, and null pointers in the dynamic one); charset.hpp 635–710 (no overload for
char32_t). -/
def findTo (S : CharT) (cs : CharsetArg) (T : CharT) (id : Nat) : Option (Option Tr) :=
  match cs.name with
  | .utf _ =>
    if cs.isStatic = false ∧ T = .char32 then none
    else some (if id = (utfOf T).id then some ⟨utfOf S, utfOf T⟩ else none)
  | .sbc i =>
    match T with
    | .char32 => none
    | .char16 => if cs.isStatic then none else some none
    | .wchar four => some (if four ∧ id = (CsName.utf .utf32).id then some ⟨.sbc i, .utf .utf32⟩ else none)
    | .char | .char8 => some (if id = (CsName.sbc i).id then some ⟨.sbc i, .sbc i⟩ else none)

/-- utf.hpp 998–1029, 1139–1170, 1307–1338, single_byte_charsets.hpp 2841–2895, 3010–3039, 3100–3109, charset.hpp 635–710: `cs.find_transcoder_from(tag<S>{}, id)`, where the code units of `cs` are of type `T` -/
def findFrom (T : CharT) (cs : CharsetArg) (S : CharT) (id : Nat) : Option (Option Tr) :=
  match cs.name with
  | .utf _ =>
    if cs.isStatic = false ∧ S = .char32 then none
    else some (if id = (utfOf S).id then some ⟨utfOf S, utfOf T⟩ else none)
  | .sbc i =>
    match S with
    | .char32 => none
    | .char16 => if cs.isStatic then none else some none
    | .wchar four => some (if four ∧ id = (CsName.utf .utf32).id then some ⟨.utf .utf32, .sbc i⟩ else none)
    | .char | .char8 => some (if id = (CsName.sbc i).id then some ⟨.sbc i, .sbc i⟩ else none)

/-- charset.hpp 813–863 has_find_transcoder_from, has_find_transcoder_to; the latter looks for find_transcoder_from, too -/
def hasFindFrom (T : CharT) (cs : CharsetArg) (S : CharT) : Bool := (findFrom T cs S (CsName.utf .utf8).id).isSome
/-- charset.hpp 813–863 -/
def hasFindTo (S : CharT) (cs : CharsetArg) (T : CharT) : Bool := (findFrom S cs T (CsName.utf .utf8).id).isSome

/-- charset.hpp 866–925 transcoder_finder_2; `none`: it does not compile -/
def finder2 (S T : CharT) (s d : CharsetArg) : Option (Option Tr) :=
  match hasFindTo S s T, hasFindFrom T d S with
  | true, true =>
    match findTo S s T d.name.id, findFrom T d S s.name.id with
    | some t1, some t2 => some (if t1.isSome then t1 else t2)
    | _, _ => none
  | true, false => findTo S s T d.name.id
  | false, true => findFrom T d S s.name.id
  | false, false => some none

/-- charset.hpp 927–1020 transcoder_finder, find_transcoder; `some none`: a transcoder whose functions are null -/
def find (S T : CharT) (s d : CharsetArg) : Option (Option Tr) :=
  if s.isStatic ∧ d.isStatic ∧ hasSpec s.name d.name then some (some ⟨s.name, d.name⟩)
  else
    match S, T with
    | .char32, .char32 => some (some ⟨.utf .utf32, .utf .utf32⟩)
    | _, .char32 => some (some ⟨s.name, .utf .utf32⟩)
    | .char32, _ => some (some ⟨.utf .utf32, d.name⟩)
    | S, T =>
      if S = T then (finder2 S T s d).map fun t => if s.name.id = d.name.id then some ⟨s.name, s.name⟩ else t
      else finder2 S T s d

/-- utf.hpp 235–870: the flags of the UTF transcoders -/
def utfFlags (f : Flags) : Utf.Flags := ⟨f.lax, f.stop⟩

/-- utf.hpp 235–870, single_byte_charsets.hpp 33–53: transcode_func() of the transcoder -/
def Tr.func (t : Tr) (f : Flags) : Func :=
  match t.src, t.dst with
  | .utf s, .utf d => Charset.utfFunc s d (utfFlags f)
  | .sbc i, .utf _ => Sbc.toU32 (sbcOf i) f
  | .utf _, .sbc j => Sbc.fromU32 (sbcOf j) f
  | .sbc i, .sbc _ => Sbc.sanitize (sbcOf i) f

/-- utf.hpp 235–870, single_byte_charsets.hpp 33–53: transcode_size_func(); `signed`: the code unit type of the source is signed -/
def Tr.size (t : Tr) (signed : Bool) (f : Flags) : SizeFunc :=
  match t.src, t.dst with
  | .utf s, .utf d => Utf.transcodeSize signed s d (utfFlags f)
  | .sbc i, .utf _ => Sbc.toU32Size (sbcOf i) f
  | .utf _, .sbc j => Sbc.fromU32Size (sbcOf j) f
  | .sbc i, .sbc _ => Sbc.toU32Size (sbcOf i) f

/-- utf.hpp 235–870, single_byte_charsets.hpp 33–53: unsafe_transcode_func() -/
def Tr.unsafeFunc (t : Tr) (f : Flags) : Func :=
  match t.src, t.dst with
  | .utf s, .utf d => Charset.utfUnsafe s d (utfFlags f)
  | .sbc i, .utf _ => Sbc.unsafeToU32 (sbcOf i)
  | .utf _, .sbc j => Sbc.unsafeFromU32 (sbcOf j) f
  | .sbc _, .sbc _ => Sbc.unsafeSanitize

/-- unsafe_transcode_size_func(); single_byte_charsets.hpp 2482–2496, 2777–2789 -/
def Tr.unsafeSize (t : Tr) (f : Flags) : SizeFunc :=
  match t.src, t.dst with
  | .utf s, .utf d => Utf.unsafeTranscodeSize s d (utfFlags f)
  | .sbc _, .utf _ => fun limit src => some (Sbc.plainSize limit src)
  | .utf _, .sbc j => Sbc.unsafeFromU32Size (sbcOf j) f
  | .sbc _, .sbc _ => fun limit src => some (Sbc.plainSize limit src)

/-- utf.hpp 990–997, 1131–1138, 1299–1306, single_byte_charsets.hpp 2996–3006: to_u32() and from_u32() of a charset -/
def toU32 (s : CsName) : Tr := ⟨s, .utf .utf32⟩
/-- utf.hpp 990–997, 1131–1138, 1299–1306, single_byte_charsets.hpp 2996–3006 -/
def fromU32 (d : CsName) : Tr := ⟨.utf .utf32, d⟩

variable {σ : Type}

/-- charset.hpp 1107–1129 decode_encode(src_charset, dst_charset, src, src_end, dst, dst_end, …) -/
def decodeEncode (s d : CsName) (f : Flags) (room : Nat) (src : List Nat) : Option DEPtr :=
  Charset.decodeEncodePtr ((toU32 s).func f) ((fromU32 d).unsafeFunc f) (src.length + 1) room src

/-- charset.hpp 1217–1240 the same to a destination -/
def decodeEncodeDst (D : Dest Nat σ) (s d : CsName) (f : Flags) (st : σ) (src : List Nat) : Option (σ × DERes) :=
  Charset.decodeEncodeTo D ((toU32 s).func f) ((fromU32 d).unsafeFunc f) st src

/-- charset.hpp 1305–1325 decode_encode_size -/
def decodeEncodeSize (s d : CsName) (f : Flags) (limit : Nat) (src : List Nat) : Option DERes :=
  Charset.decodeEncodeSize 16 ((toU32 s).func f) ((fromU32 d).unsafeSize f) (src.length + 1) limit src

/-- charset.hpp 1352–1390 unsafe_decode_encode -/
def unsafeDecodeEncode (s d : CsName) (f : Flags) (room : Nat) (src : List Nat) : Option DEPtr :=
  Charset.decodeEncodePtr ((toU32 s).unsafeFunc f) ((fromU32 d).unsafeFunc f) (src.length + 1) room src

/-- charset.hpp 1433–1455 unsafe_decode_encode_size -/
def unsafeDecodeEncodeSize (s d : CsName) (f : Flags) (limit : Nat) (src : List Nat) : Option DERes :=
  Charset.decodeEncodeSize 32 ((toU32 s).unsafeFunc f) ((fromU32 d).unsafeSize f) (src.length + 1) limit src

/-- charset.hpp 1499–1524 transcode(src_charset, dst_charset, src, src_end, dst, dst_end, …), to `room` units; `none`: it does not
compile, or undefined behaviour -/
def transcode (S T : CharT) (s d : CharsetArg) (f : Flags) (room : Nat) (src : List Nat) : Option DEPtr :=
  match find S T s d with
  | none => none
  | some (some t) => (t.func f room src).map fun r => ⟨r.rest, r.out, 0, r.why, r.events⟩
  | some none => decodeEncode s.name d.name f room src

/-- charset.hpp 1585–1612 transcode(src_charset, dst_charset, src, src_end, dst, …), to a destination -/
def transcodeDst (D : Dest Nat σ) (S T : CharT) (s d : CharsetArg) (f : Flags) (st : σ) (src : List Nat) : Option (σ × DERes) :=
  match find S T s d with
  | none => none
  | some (some t) => (Charset.transcodeTo D (t.func f) st src).map fun p => (p.1, ⟨p.2.count, p.2.rest, 0, p.2.why, p.2.events⟩)
  | some none => decodeEncodeDst D s.name d.name f st src

/-- charset.hpp 1641–1666 transcode_size -/
def transcodeSize (S T : CharT) (signed : Bool) (s d : CharsetArg) (f : Flags) (limit : Nat) (src : List Nat) : Option DERes :=
  match find S T s d with
  | none => none
  | some (some t) => (t.size signed f limit src).map fun r => ⟨r.size, r.rest, 0, r.why, []⟩
  | some none => decodeEncodeSize s.name d.name f limit src

/-- charset.hpp 1691–1716 unsafe_transcode to `room` units -/
def unsafeTranscode (S T : CharT) (s d : CharsetArg) (f : Flags) (room : Nat) (src : List Nat) : Option DEPtr :=
  match find S T s d with
  | none => none
  | some (some t) => (t.unsafeFunc f room src).map fun r => ⟨r.rest, r.out, 0, r.why, r.events⟩
  | some none => unsafeDecodeEncode s.name d.name f room src

/-- charset.hpp 1744–1771 unsafe_transcode to a destination -/
def unsafeTranscodeDst (D : Dest Nat σ) (S T : CharT) (s d : CharsetArg) (f : Flags) (st : σ) (src : List Nat) :
    Option (σ × DERes) :=
  match find S T s d with
  | none => none
  | some (some t) =>
    (Charset.transcodeTo D (t.unsafeFunc f) st src).map fun p => (p.1, ⟨p.2.count, p.2.rest, 0, p.2.why, p.2.events⟩)
  | some none => Charset.decodeEncodeTo D ((toU32 s.name).unsafeFunc f) ((fromU32 d.name).unsafeFunc f) st src

/-- charset.hpp 1799–1823 unsafe_transcode_size -/
def unsafeTranscodeSize (S T : CharT) (s d : CharsetArg) (f : Flags) (limit : Nat) (src : List Nat) : Option DERes :=
  match find S T s d with
  | none => none
  | some (some t) => (t.unsafeSize f limit src).map fun r => ⟨r.size, r.rest, 0, r.why, []⟩
  | some none => unsafeDecodeEncodeSize s.name d.name f limit src

end Strf.Transcode

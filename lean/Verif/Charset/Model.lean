import Verif.Utf.Model
import Verif.Dest.Model
/-!
# Model of the transcoding drivers of include/strf/detail/facets/charset.hpp

A transcoding function (`transcode_f`) is a function from the room in the destination range and the source to a
result; `none` is undefined behaviour. The drivers call such functions repeatedly, with a destination whose
buffer is recycled, or through a pivot buffer of UTF-32.
-/
namespace Strf.Charset
open Strf.Utf (Reason TR Note)
open Strf.Dest (Dest)

/-- facets/charset.hpp 62–105: A call of the transcoding_error_notifier: invalid_sequence (where the sequence begins, counted from the end of the
source, and its size) or unsupported_codepoint. -/
inductive Event
  | invalid (fromEnd size : Nat)
  | unsupported (cp : Nat)
deriving DecidableEq, Repr

/-- charset.hpp 213–219 transcode_result: `rest` is `[src_ptr, src_end)`, `out` the units stored before `dst_ptr`. -/
structure Res where
  rest : List Nat
  out : List Nat
  why : Reason
  events : List Event
deriving DecidableEq, Repr

/-- charset.hpp 237–244 transcode_f (err_notifier and flags fixed). -/
abbrev Func := Nat → List Nat → Option Res

/-- facets/charset.hpp 214–220: The results of the UTF transcoders (Utf/Model.lean) in this form. -/
def ofTR (r : TR) : Res := ⟨r.rest, r.out, r.why, r.notes.map fun n => .invalid n.fromEnd n.size⟩

/-- charset.hpp 221–227 transcode_size_result, and the calls made to the notifier. -/
structure DRes where
  count : Nat
  rest : List Nat
  why : Reason
  events : List Event
deriving DecidableEq, Repr

variable {σ : Type}

/-- charset.hpp 1567–1582: the loop of `transcode(func, src, src_end, dst, …)`. -/
def transcodeLoop (D : Dest Nat σ) (func : Func) : Nat → σ → List Nat → Option (σ × DRes)
  | 0, _, _ => none
  | fuel + 1, s, src =>
    match func (D.space s) src with
    | none => none
    | some r =>
      match D.poke s r.out with
      | none => none
      | some s1 =>
        if r.why ≠ .insufficient then some (s1, ⟨r.out.length, r.rest, r.why, r.events⟩)
        else
          let s2 := D.recycle s1
          if !D.good s2 then some (s2, ⟨r.out.length, r.rest, .insufficient, r.events⟩)
          else
            match transcodeLoop D func fuel s2 r.rest with
            | none => none
            | some (s3, q) => some (s3, ⟨r.out.length + q.count, q.rest, q.why, r.events ++ q.events⟩)

/-- charset.hpp 1552–1583 `transcode(func, src, src_end, dst, …)`. -/
def transcodeTo (D : Dest Nat σ) (func : Func) (s : σ) (src : List Nat) : Option (σ × DRes) :=
  if !D.good s then some (s, ⟨0, src, .insufficient, []⟩)
  else transcodeLoop D func (src.length + 2) s src

/-- charset.hpp 1059–1066 decode_encode_size_result, and the calls made to the notifier: `stale` is the source from
stale_src_ptr on. -/
structure DERes where
  count : Nat
  stale : List Nat
  u32dist : Nat
  why : Reason
  events : List Event
deriving DecidableEq, Repr

/-- facets/charset.hpp 1070–1108: Result of the inner loop of decode_encode: the pivot buffer was all encoded, or the function returned. -/
inductive Inner (σ : Type)
  | next (s : σ) (count : Nat) (events : List Event)
  | ret (s : σ) (count : Nat) (left : List Nat) (why : Reason) (events : List Event)

/-- charset.hpp 1180–1213: the inner loop of decode_encode. The code stores into the destination's buffer but calls
advance_to only when it leaves the loop, except when going on to the next pivot block, where it keeps `dst_it` for
later; here each store is followed by the advance (no code in between looks at buffer_ptr). -/
def encodePivot (D : Dest Nat σ) (fromU32 : Func) : Nat → σ → List Nat → Option (Inner σ)
  | 0, _, _ => none
  | fuel + 1, s, pivot =>
    match fromU32 (D.space s) pivot with
    | none => none
    | some q =>
      match D.poke s q.out with
      | none => none
      | some s1 =>
        if q.why = .completed then some (.next s1 q.out.length q.events)
        else if q.why = .insufficient then
          let s2 := D.recycle s1
          if !D.good s2 then some (.ret s2 q.out.length q.rest .insufficient q.events)
          else
            match encodePivot D fromU32 fuel s2 q.rest with
            | none => none
            | some (.next s3 n ev) => some (.next s3 (q.out.length + n) (q.events ++ ev))
            | some (.ret s3 n left why ev) => some (.ret s3 (q.out.length + n) left why (q.events ++ ev))
        else some (.ret s1 q.out.length q.rest .unsupported q.events)

/-- charset.hpp 1176–1214: the outer loop of decode_encode, with a pivot buffer of 16 code points (l.1171). -/
def decodeEncodeLoop (D : Dest Nat σ) (toU32 fromU32 : Func) : Nat → σ → List Nat → Option (σ × DERes)
  | 0, _, _ => none
  | fuel + 1, s, src =>
    match toU32 16 src with
    | none => none
    | some r =>
      match encodePivot D fromU32 (r.out.length + 2) s r.out with
      | none => none
      | some (.ret s1 n left why ev) => some (s1, ⟨n, src, r.out.length - left.length, why, r.events ++ ev⟩)
      | some (.next s1 n ev) =>
        if r.why = .insufficient then
          match decodeEncodeLoop D toU32 fromU32 fuel s1 r.rest with
          | none => none
          | some (s2, q) => some (s2, ⟨n + q.count, q.stale, q.u32dist, q.why, r.events ++ ev ++ q.events⟩)
        else some (s1, ⟨n, r.rest, 0, r.why, r.events ++ ev⟩)

/-- charset.hpp 1157–1215 `decode_encode(to_u32, from_u32, src, src_end, dst, …)` to a destination. -/
def decodeEncodeTo (D : Dest Nat σ) (toU32 fromU32 : Func) (s : σ) (src : List Nat) : Option (σ × DERes) :=
  if !D.good s then some (s, ⟨0, src, 0, .insufficient, []⟩)
  else decodeEncodeLoop D toU32 fromU32 (src.length + 1) s src

/-- charset.hpp 1050–1057 decode_encode_result. -/
structure DEPtr where
  stale : List Nat
  out : List Nat
  u32dist : Nat
  why : Reason
  events : List Event
deriving DecidableEq, Repr

/-- charset.hpp 1068–1105 `decode_encode(to_u32, from_u32, src, src_end, dst, dst_end, …)` to a pointer range with
`room` units. -/
def decodeEncodePtr (toU32 fromU32 : Func) : Nat → Nat → List Nat → Option DEPtr
  | 0, _, _ => none
  | fuel + 1, room, src =>
    match toU32 16 src with
    | none => none
    | some r =>
      match fromU32 room r.out with
      | none => none
      | some q =>
        if q.why = .completed then
          if r.why = .insufficient then
            match decodeEncodePtr toU32 fromU32 fuel (room - q.out.length) r.rest with
            | none => none
            | some x => some { x with out := q.out ++ x.out, events := r.events ++ q.events ++ x.events }
          else some ⟨r.rest, q.out, 0, r.why, r.events ++ q.events⟩
        else some ⟨src, q.out, r.out.length - q.rest.length, q.why, r.events ++ q.events⟩

/-- charset.hpp 246–252 transcode_size_f: limit and source to size, rest and reason. -/
abbrev SizeFunc := Nat → List Nat → Option Utf.SR

/-- charset.hpp 1265–1303 `decode_encode_size(to_u32, size_calc_func, src, src_end, limit, flags)` (pivot = 16), and
1392–1431 `unsafe_decode_encode_size` (pivot = 32). The result is the size, stale_src_ptr, u32dist and the reason. -/
def decodeEncodeSize (pivot : Nat) (toU32 : Func) (size : SizeFunc) : Nat → Nat → List Nat → Option DERes
  | 0, _, _ => none
  | fuel + 1, limit, src =>
    match toU32 pivot src with
    | none => none
    | some r =>
      match size limit r.out with
      | none => none
      | some q =>
        if q.why = .completed then
          if r.why = .insufficient then
            match decodeEncodeSize pivot toU32 size fuel (limit - q.size) r.rest with
            | none => none
            | some x => some { x with count := q.size + x.count }
          else some ⟨q.size, r.rest, 0, r.why, []⟩
        else some ⟨q.size, src, r.out.length - q.rest.length, q.why, []⟩

end Strf.Charset

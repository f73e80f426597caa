import Verif.Utf.Spec
/-!
# Model of include/strf/detail/utf.hpp

Pointers into the source are represented by the list of units from that pointer to `src_end`; the destination
range `[dst_it, dst_end)` by the number of units of room in it. Stores outside the destination range, reads
past `src_end`, and loop iterations that do not advance are the outcome `none`. Code units are natural numbers
below the bound of the unit type (`cast_u8`, `cast_u16`, `cast_u32` are therefore identities); conversions
that may lose bits (`static_cast<DstCharT>`) are `% 2^n`. `std::ptrdiff_t` limits are taken non-negative.
-/
namespace Strf.Utf

/-- charset.hpp: transcode_flags (the flag stop_on_unsupported_codepoint is not used by utf.hpp). -/
structure Flags where
  lax : Bool
  stop : Bool
deriving DecidableEq, Repr

/-- charset.hpp: enum class transcode_stop_reason. -/
inductive Reason | completed | insufficient | invalid | unsupported
deriving DecidableEq, Repr

/-- facets/charset.hpp 62–79: One call of transcoding_error_notifier::invalid_sequence: where the sequence begins (as `src_end -
seq_begin`) and its size. -/
structure Note where
  fromEnd : Nat
  size : Nat
deriving DecidableEq, Repr

/-- facets/charset.hpp 214–220: transcode_result together with the effects: `rest` is `[src_ptr, src_end)`, `out` is what was stored from
`dst` to `dst_ptr`. -/
structure TR where
  rest : List Nat
  out : List Nat
  why : Reason
  notes : List Note
deriving DecidableEq, Repr

/-- facets/charset.hpp 222–227: transcode_size_result. -/
structure SR where
  size : Nat
  rest : List Nat
  why : Reason
deriving DecidableEq, Repr

/-- utf.hpp 91–3127: One iteration of a transcoding loop. -/
inductive Step
  | cont (units : List Nat) (next : List Nat) (notes : List Note)
  | ret (rest : List Nat) (why : Reason) (notes : List Note)
  | ub
deriving DecidableEq, Repr

/-- STRF_UTF_CHECK_DST / STRF_UTF_CHECK_DST_SIZE (utf.hpp 14–22) followed by the stores of `units` and the
advance of dst_it. -/
def emit (room need : Nat) (units next seq : List Nat) (notes : List Note) : Step :=
  if room < need then .ret seq .insufficient notes
  else if room < units.length then .ub
  else .cont units next notes

/-- The code at the label `invalid_sequence:` in each transcoder, e.g. utf.hpp 1442–1450. `next` is src_it. -/
def invalidSeq (stop : Bool) (room need : Nat) (units next seq : List Nat) : Step :=
  let notes := [⟨seq.length, seq.length - next.length⟩]
  if stop then .ret seq .invalid notes else emit room need units next seq notes

/-- utf.hpp 91–3127: The loop `while (src_it < src_end) { … }` and the final `return {src_it, dst_it, completed}`. -/
def run (step : Nat → Nat → List Nat → Step) (room : Nat) : List Nat → Option TR
  | [] => some ⟨[], [], .completed, []⟩
  | ch :: t =>
    match step room ch t with
    | .ub => none
    | .ret rest why notes => some ⟨rest, [], why, notes⟩
    | .cont units next notes =>
      if _h : next.length ≤ t.length then
        (run step (room - units.length) next).map fun r =>
          { r with out := units ++ r.out, notes := notes ++ r.notes }
      else none
  termination_by src => src.length
  decreasing_by simp; omega

/-- utf.hpp 91–3127: One iteration of a size-calculating loop; `cont size next` or `return {…}`. -/
inductive SStep
  | cont (size : Nat) (next : List Nat)
  | ret (r : SR)
  | ub
deriving DecidableEq, Repr

/-- utf.hpp 91–3127: The loop of the transcode_size functions. -/
def runSize (step : Nat → Nat → List Nat → SStep) (size : Nat) : List Nat → Option SR
  | [] => some ⟨size, [], .completed⟩
  | ch :: t =>
    match step size ch t with
    | .ub => none
    | .ret r => some r
    | .cont size' next =>
      if _h : next.length ≤ t.length then runSize step size' next else none
  termination_by src => src.length
  decreasing_by simp; omega

/-! ## Helper functions (utf.hpp 128–230) -/

/-- utf.hpp 128–131. -/
def isSurrogate (c : Nat) : Bool := c >>> 11 == 0x1B
/-- utf.hpp 132–135. -/
def isHigh (c : Nat) : Bool := c >>> 10 == 0x36
/-- utf.hpp 136–139. -/
def isLow (c : Nat) : Bool := c >>> 10 == 0x37
/-- utf.hpp 152–156 (two units). -/
def utf8Decode2 (ch0 ch1 : Nat) : Nat := ((ch0 &&& 0x1F) <<< 6) ||| (ch1 &&& 0x3F)
/-- utf.hpp 157–162 (three units). -/
def utf8Decode3 (ch0 ch1 ch2 : Nat) : Nat :=
  ((ch0 &&& 0x0F) <<< 12) ||| ((ch1 &&& 0x3F) <<< 6) ||| (ch2 &&& 0x3F)
/-- utf.hpp 163–169 (four units). -/
def utf8Decode4 (ch0 ch1 ch2 ch3 : Nat) : Nat :=
  ((ch0 &&& 0x07) <<< 18) ||| ((ch1 &&& 0x3F) <<< 12) ||| ((ch2 &&& 0x3F) <<< 6) ||| (ch3 &&& 0x3F)
/-- is_utf8_continuation, utf.hpp 171–181. -/
def isCont (ch : Nat) : Bool := (ch &&& 0xC0) == 0x80
/-- utf8_decode_first_2_of_3, utf.hpp 195–198. -/
def first2of3 (ch0 ch1 : Nat) : Nat := ((ch0 &&& 0x0F) <<< 6) ||| (ch1 &&& 0x3F)
/-- first_2_of_3_are_valid, utf.hpp 200–210. -/
def first2of3Valid (x : Nat) (lax : Bool) : Bool := lax || (x >>> 5) != 0x1B
/-- utf8_decode_first_2_of_4, utf.hpp 212–215. -/
def first2of4 (ch0 ch1 : Nat) : Nat := ((ch0 ^^^ 0xF0) <<< 6) ||| (ch1 &&& 0x3F)
/-- utf8_decode_last_2_of_4, utf.hpp 217–220. -/
def last2of4 (x ch2 ch3 : Nat) : Nat := (x <<< 12) ||| ((ch2 &&& 0x3F) <<< 6) ||| (ch3 &&& 0x3F)
/-- first_2_of_4_are_valid, utf.hpp 222–230. -/
def first2of4Valid (x : Nat) : Bool := decide (0xF < x) && decide (x < 0x110)

/-- static_cast to an 8-bit unit. -/
def tr8 (x : Nat) : Nat := x % 0x100
/-- static_cast to a 16-bit unit. -/
def tr16 (x : Nat) : Nat := x % 0x10000

/-! ## From UTF-8 -/

/-- Loop body of utf8 → utf32 transcode, utf.hpp 1400–1456. -/
def step8to32 (f : Flags) (room ch0 : Nat) (t : List Nat) : Step :=
  let seq := ch0 :: t
  let invalid := fun next => invalidSeq f.stop room 1 [0xFFFD] next seq
  let store := fun ch32 next => emit room 1 [ch32] next seq []
  if ch0 < 0x80 then store ch0 t
  else if 0xC0 = ch0 &&& 0xE0 then
    match t with
    | [] => invalid t
    | ch1 :: t1 => if ch0 > 0xC1 ∧ isCont ch1 then store (utf8Decode2 ch0 ch1) t1 else invalid t
  else if 0xE0 = ch0 then
    match t with
    | [] => invalid t
    | ch1 :: t1 =>
      if ch1 &&& 0xE0 = 0xA0 then
        match t1 with
        | [] => invalid t1
        | ch2 :: t2 =>
          if isCont ch2 then store (((ch1 &&& 0x3F) <<< 6) ||| (ch2 &&& 0x3F)) t2 else invalid t1
      else invalid t
  else if 0xE0 = ch0 &&& 0xF0 then
    match t with
    | [] => invalid t
    | ch1 :: t1 =>
      if isCont ch1 ∧ first2of3Valid (first2of3 ch0 ch1) f.lax then
        match t1 with
        | [] => invalid t1
        | ch2 :: t2 =>
          if isCont ch2 then store ((first2of3 ch0 ch1 <<< 6) ||| (ch2 &&& 0x3F)) t2 else invalid t1
      else invalid t
  else
    match t with
    | [] => invalid t
    | ch1 :: t1 =>
      if isCont ch1 ∧ first2of4Valid (first2of4 ch0 ch1) then
        match t1 with
        | [] => invalid t1
        | ch2 :: t2 =>
          if isCont ch2 then
            match t2 with
            | [] => invalid t2
            | ch3 :: t3 =>
              if isCont ch3 then store (last2of4 (first2of4 ch0 ch1) ch2 ch3) t3 else invalid t2
          else invalid t1
      else invalid t

/-- utf8 → utf32 transcode, utf.hpp 1375–1458. -/
def transcode8to32 (f : Flags) (room : Nat) (src : List Nat) : Option TR := run (step8to32 f) room src

/-- Loop body of utf8 → utf8 transcode, utf.hpp 1703–1778. -/
def step8to8 (f : Flags) (room ch0 : Nat) (t : List Nat) : Step :=
  let seq := ch0 :: t
  let invalid := fun next => invalidSeq f.stop room 3 [0xEF, 0xBF, 0xBD] next seq
  if ch0 < 0x80 then emit room 1 [ch0] t seq []
  else if 0xC0 = ch0 &&& 0xE0 then
    match t with
    | [] => invalid t
    | ch1 :: t1 => if ch0 > 0xC1 ∧ isCont ch1 then emit room 2 [ch0, ch1] t1 seq [] else invalid t
  else if 0xE0 = ch0 then
    match t with
    | [] => invalid t
    | ch1 :: t1 =>
      if 0xA0 = ch1 &&& 0xE0 then
        match t1 with
        | [] => invalid t1
        | ch2 :: t2 => if isCont ch2 then emit room 3 [ch0, ch1, ch2] t2 seq [] else invalid t1
      else invalid t
  else if 0xE0 = ch0 &&& 0xF0 then
    match t with
    | [] => invalid t
    | ch1 :: t1 =>
      if isCont ch1 ∧ first2of3Valid (first2of3 ch0 ch1) f.lax then
        match t1 with
        | [] => invalid t1
        | ch2 :: t2 => if isCont ch2 then emit room 3 [ch0, ch1, ch2] t2 seq [] else invalid t1
      else invalid t
  else
    match t with
    | [] => invalid t
    | ch1 :: t1 =>
      if isCont ch1 ∧ first2of4Valid (first2of4 ch0 ch1) then
        match t1 with
        | [] => invalid t1
        | ch2 :: t2 =>
          if isCont ch2 then
            match t2 with
            | [] => invalid t2
            | ch3 :: t3 =>
              if isCont ch3 then emit room 4 [ch0, ch1, ch2, ch3] t3 seq [] else invalid t2
          else invalid t1
      else invalid t

/-- utf8 → utf8 transcode, utf.hpp 1684–1780. -/
def transcode8to8 (f : Flags) (room : Nat) (src : List Nat) : Option TR := run (step8to8 f) room src

/-- Loop body of utf8 → utf16 transcode, utf.hpp 3092–3155. -/
def step8to16 (f : Flags) (room ch0 : Nat) (t : List Nat) : Step :=
  let seq := ch0 :: t
  let invalid := fun next => invalidSeq f.stop room 1 [0xFFFD] next seq
  let store := fun v next => emit room 1 [tr16 v] next seq []
  if ch0 < 0x80 then store ch0 t
  else if 0xC0 = ch0 &&& 0xE0 then
    match t with
    | [] => invalid t
    | ch1 :: t1 => if ch0 > 0xC1 ∧ isCont ch1 then store (utf8Decode2 ch0 ch1) t1 else invalid t
  else if 0xE0 = ch0 then
    match t with
    | [] => invalid t
    | ch1 :: t1 =>
      if ch1 &&& 0xE0 = 0xA0 then
        match t1 with
        | [] => invalid t1
        | ch2 :: t2 =>
          if isCont ch2 then store (((ch1 &&& 0x3F) <<< 6) ||| (ch2 &&& 0x3F)) t2 else invalid t1
      else invalid t
  else if 0xE0 = ch0 &&& 0xF0 then
    match t with
    | [] => invalid t
    | ch1 :: t1 =>
      if isCont ch1 ∧ first2of3Valid (first2of3 ch0 ch1) f.lax then
        match t1 with
        | [] => invalid t1
        | ch2 :: t2 =>
          if isCont ch2 then store ((first2of3 ch0 ch1 <<< 6) ||| (ch2 &&& 0x3F)) t2 else invalid t1
      else invalid t
  else
    match t with
    | [] => invalid t
    | ch1 :: t1 =>
      if isCont ch1 ∧ first2of4Valid (first2of4 ch0 ch1) then
        match t1 with
        | [] => invalid t1
        | ch2 :: t2 =>
          if isCont ch2 then
            match t2 with
            | [] => invalid t2
            | ch3 :: t3 =>
              if isCont ch3 then
                let x := last2of4 (first2of4 ch0 ch1) ch2 ch3 - 0x10000
                emit room 2 [tr16 (0xD800 + (x >>> 10)), tr16 (0xDC00 + (x &&& 0x3FF))] t3 seq []
              else invalid t2
          else invalid t1
      else invalid t

/-- utf8 → utf16 transcode, utf.hpp 3067–3157. -/
def transcode8to16 (f : Flags) (room : Nat) (src : List Nat) : Option TR := run (step8to16 f) room src

/-! ## From UTF-16 -/

/-- The code point of a surrogate pair, e.g. utf.hpp 2345. -/
def fromPair (ch ch2 : Nat) : Nat := 0x10000 + (((ch &&& 0x3FF) <<< 10) ||| (ch2 &&& 0x3FF))

/-- Loop body of utf16 → utf32 transcode, utf.hpp 2335–2360. -/
def step16to32 (f : Flags) (room ch : Nat) (t : List Nat) : Step :=
  let seq := ch :: t
  let single := emit room 1 [ch] t seq []
  let lone := if !f.lax then invalidSeq f.stop room 1 [0xFFFD] t seq else single
  if isSurrogate ch then
    match t with
    | [] => lone
    | ch2 :: t2 => if isHigh ch ∧ isLow ch2 then emit room 1 [fromPair ch ch2] t2 seq [] else lone
  else single

/-- utf16 → utf32 transcode, utf.hpp 2322–2362. -/
def transcode16to32 (f : Flags) (room : Nat) (src : List Nat) : Option TR := run (step16to32 f) room src

/-- Loop body of utf16 → utf16 transcode, utf.hpp 2535–2565. -/
def step16to16 (f : Flags) (room ch : Nat) (t : List Nat) : Step :=
  let seq := ch :: t
  let single := emit room 1 [ch] t seq []
  let lone := if !f.lax then invalidSeq f.stop room 1 [0xFFFD] t seq else single
  if isSurrogate ch then
    match t with
    | [] => lone
    | ch2 :: t2 => if isHigh ch ∧ isLow ch2 then emit room 2 [ch, ch2] t2 seq [] else lone
  else single

/-- utf16 → utf16 transcode, utf.hpp 2522–2567. -/
def transcode16to16 (f : Flags) (room : Nat) (src : List Nat) : Option TR := run (step16to16 f) room src

/-- Stores of a two-unit UTF-8 sequence, e.g. utf.hpp 2117–2119. -/
def put2 (ch : Nat) : List Nat := [tr8 (0xC0 ||| (0x1F &&& (ch >>> 6))), tr8 (0x80 ||| (0xBF &&& ch))]
/-- Stores of a three-unit UTF-8 sequence, e.g. utf.hpp 2124–2126. -/
def put3 (ch : Nat) : List Nat :=
  [tr8 (0xE0 ||| (0x0F &&& (ch >>> 12))), tr8 (0x80 ||| (0xBF &&& (ch >>> 6))), tr8 (0x80 ||| (0xBF &&& ch))]
/-- Stores of a four-unit UTF-8 sequence, e.g. utf.hpp 2131–2134. -/
def put4 (ch : Nat) : List Nat :=
  [tr8 (0xF0 ||| (0x07 &&& (ch >>> 18))), tr8 (0x80 ||| (0xBF &&& (ch >>> 12))),
   tr8 (0x80 ||| (0xBF &&& (ch >>> 6))), tr8 (0x80 ||| (0xBF &&& ch))]

/-- Loop body of utf16 → utf8 transcode, utf.hpp 3399–3447. -/
def step16to8 (f : Flags) (room ch : Nat) (t : List Nat) : Step :=
  let seq := ch :: t
  let three := emit room 3 (put3 ch) t seq []
  let lone := if f.lax then three else invalidSeq f.stop room 3 [0xEF, 0xBF, 0xBD] t seq
  if ch < 0x80 then emit room 1 [ch] t seq []
  else if ch < 0x800 then emit room 2 (put2 ch) t seq []
  else if !isSurrogate ch then three
  else
    match t with
    | [] => lone
    | ch2 :: t2 => if isHigh ch ∧ isLow ch2 then emit room 4 (put4 (fromPair ch ch2)) t2 seq [] else lone

/-- utf16 → utf8 transcode, utf.hpp 3383–3449. -/
def transcode16to8 (f : Flags) (room : Nat) (src : List Nat) : Option TR := run (step16to8 f) room src

/-! ## From UTF-32 -/

/-- Loop body of utf32 → utf8 transcode, utf.hpp 2106–2148. -/
def step32to8 (f : Flags) (room ch : Nat) (t : List Nat) : Step :=
  let seq := ch :: t
  let invalid := invalidSeq f.stop room 3 [0xEF, 0xBF, 0xBD] t seq
  if ch < 0x80 then emit room 1 [ch] t seq []
  else if ch < 0x800 then emit room 2 (put2 ch) t seq []
  else if ch < 0x10000 then
    if f.lax || !isSurrogate ch then emit room 3 (put3 ch) t seq [] else invalid
  else if ch < 0x110000 then emit room 4 (put4 ch) t seq []
  else invalid

/-- utf32 → utf8 transcode, utf.hpp 2092–2150. -/
def transcode32to8 (f : Flags) (room : Nat) (src : List Nat) : Option TR := run (step32to8 f) room src

/-- Loop body of utf32 → utf16 transcode, utf.hpp 2770–2798. -/
def step32to16 (f : Flags) (room ch : Nat) (t : List Nat) : Step :=
  let seq := ch :: t
  let invalid := invalidSeq f.stop room 1 [0xFFFD] t seq
  if ch < 0x10000 then
    if f.lax || !isSurrogate ch then emit room 1 [ch] t seq [] else invalid
  else if ch < 0x110000 then
    emit room 2 [tr16 (0xD800 ||| ((ch - 0x10000) >>> 10)), tr16 (0xDC00 ||| ((ch - 0x10000) &&& 0x3FF))] t seq []
  else invalid

/-- utf32 → utf16 transcode, utf.hpp 2756–2800. -/
def transcode32to16 (f : Flags) (room : Nat) (src : List Nat) : Option TR := run (step32to16 f) room src

/-- Loop bodies of utf32 → utf32 transcode, lax (utf.hpp 2956–2971) and strict (2973–2988). -/
def step32to32 (f : Flags) (room ch : Nat) (t : List Nat) : Step :=
  let seq := ch :: t
  if f.lax then
    if ch ≥ 0x110000 then invalidSeq f.stop room 1 [0xFFFD] t seq else emit room 1 [ch] t seq []
  else
    if ch ≥ 0x110000 ∨ isSurrogate ch then invalidSeq f.stop room 1 [0xFFFD] t seq
    else emit room 1 [ch] t seq []

/-- utf32 → utf32 transcode, utf.hpp 2943–2991. -/
def transcode32to32 (f : Flags) (room : Nat) (src : List Nat) : Option TR := run (step32to32 f) room src

/-- static_transcoder<…>::transcode for a pair of UTF charsets (utf_to_utf, utf.hpp 898–900). -/
def transcode : Enc → Enc → Flags → Nat → List Nat → Option TR
  | .utf8, .utf8 => transcode8to8
  | .utf8, .utf16 => transcode8to16
  | .utf8, .utf32 => transcode8to32
  | .utf16, .utf8 => transcode16to8
  | .utf16, .utf16 => transcode16to16
  | .utf16, .utf32 => transcode16to32
  | .utf32, .utf8 => transcode32to8
  | .utf32, .utf16 => transcode32to16
  | .utf32, .utf32 => transcode32to32

end Strf.Utf

import Verif.Utf.ModelSize
/-!
# Model of the unsafe_transcode and unsafe_transcode_size functions of include/strf/detail/utf.hpp

These read without looking for the end of the source inside a sequence: a read at or past `src_end`, or an
advance past it, is `ub` here.
-/
namespace Strf.Utf

/-- Loop body of utf8 → utf32 unsafe_transcode, utf.hpp 1618–1646. -/
def ustep8to32 (room ch0 : Nat) (t : List Nat) : Step :=
  let seq := ch0 :: t
  if ch0 < 0x80 then emit room 1 [ch0] t seq []
  else if ch0 < 0xE0 then
    match t with
    | ch1 :: t1 => emit room 1 [utf8Decode2 ch0 ch1] t1 seq []
    | _ => .ub
  else if ch0 < 0xF0 then
    match t with
    | ch1 :: ch2 :: t2 => emit room 1 [utf8Decode3 ch0 ch1 ch2] t2 seq []
    | _ => .ub
  else
    match t with
    | ch1 :: ch2 :: ch3 :: t3 => emit room 1 [utf8Decode4 ch0 ch1 ch2 ch3] t3 seq []
    | _ => .ub

/-- The two tests at the beginning of some of the functions, e.g. utf.hpp 1609–1614. -/
def early (room : Nat) (src : List Nat) (body : Option TR) : Option TR :=
  if src = [] then some ⟨src, [], .completed, []⟩
  else if room = 0 then some ⟨src, [], .insufficient, []⟩
  else body

/-- utf8 → utf32 unsafe_transcode, utf.hpp 1598–1647. -/
def unsafeTranscode8to32 (room : Nat) (src : List Nat) : Option TR := early room src (run ustep8to32 room src)

/-- The loop `while (is_utf8_continuation(*next_src) && next_src > src) --next_src`, utf.hpp 1803–1805;
`k` is `next_src - src`. -/
def backUp8 (src : List Nat) : Nat → Option Nat
  | 0 => if 0 < src.length then some 0 else none
  | k + 1 =>
    match src[k + 1]? with
    | none => none
    | some u => if isCont u then backUp8 src k else some (k + 1)

/-- utf8 → utf8 unsafe_transcode, utf.hpp 1782–1809. -/
def unsafeTranscode8to8 (room : Nat) (src : List Nat) : Option TR :=
  if src.length ≤ room then some ⟨[], src, .completed, []⟩
  else (backUp8 src room).map fun count => ⟨src.drop count, src.take count, .insufficient, []⟩

/-- Loop body of utf8 → utf16 unsafe_transcode, utf.hpp 3325–3352. The first space check precedes the reads. -/
def ustep8to16 (room ch0 : Nat) (t : List Nat) : Step :=
  let seq := ch0 :: t
  if room < 1 then .ret seq .insufficient []
  else if ch0 < 0x80 then emit room 1 [ch0] t seq []
  else if ch0 < 0xE0 then
    match t with
    | ch1 :: t1 => emit room 1 [tr16 (utf8Decode2 ch0 ch1)] t1 seq []
    | _ => .ub
  else if ch0 < 0xF0 then
    match t with
    | ch1 :: ch2 :: t2 => emit room 1 [tr16 (utf8Decode3 ch0 ch1 ch2)] t2 seq []
    | _ => .ub
  else if room < 2 then .ret seq .insufficient []
  else
    match t with
    | ch1 :: ch2 :: ch3 :: t3 =>
      let x := utf8Decode4 ch0 ch1 ch2 ch3 - 0x10000
      emit room 2 [tr16 (0xD800 + (x >>> 10)), tr16 (0xDC00 + (x &&& 0x3FF))] t3 seq []
    | _ => .ub

/-- Loop bodies of utf16 → utf32 unsafe_transcode, utf.hpp 2453–2466 (strict) and 2468–2483 (lax). -/
def ustep16to32 (lax : Bool) (room ch : Nat) (t : List Nat) : Step :=
  let seq := ch :: t
  if lax then
    match t with
    | ch2 :: t2 =>
      if isHigh ch ∧ isLow ch2 then emit room 1 [fromPair ch ch2] t2 seq [] else emit room 1 [ch] t seq []
    | [] => emit room 1 [ch] t seq []
  else if isHigh ch then
    match t with
    | ch2 :: t2 => emit room 1 [fromPair ch ch2] t2 seq []
    | [] => .ub
  else emit room 1 [ch] t seq []

/-- utf16 → utf16 unsafe_transcode, utf.hpp 2569–2601. -/
def unsafeTranscode16to16 (room : Nat) (src : List Nat) : Option TR :=
  if src ≠ [] then
    if src.length ≤ room then some ⟨[], src, .completed, []⟩
    else
      let count := room
      if room ≠ 0 then
        match src[count]?, src[count - 1]? with
        | some b, some a =>
          let count := if isLow b && isHigh a then count - 1 else count
          some ⟨src.drop count, src.take count, .insufficient, []⟩
        | _, _ => none
      else some ⟨src, [], .insufficient, []⟩
  else some ⟨src, [], .completed, []⟩

/-- Loop body of utf16 → utf8 unsafe_transcode_lax_surr_, utf.hpp 3574–3610. -/
def ustep16to8Lax (room ch : Nat) (t : List Nat) : Step :=
  let seq := ch :: t
  let required := if ch < 0x80 then 1 else if ch < 0x800 then 2 else 3
  if room < 4 ∧ required > room then .ret seq .insufficient []
  else if ch < 0x80 then emit room 0 [tr8 ch] t seq []
  else if ch < 0x800 then emit room 0 (put2 ch) t seq []
  else
    match t with
    | ch2 :: t2 =>
      if !isHigh ch || !isLow ch2 then emit room 0 (put3 ch) t seq []
      else emit room 4 (put4 (fromPair ch ch2)) t2 seq []
    | [] => emit room 0 (put3 ch) t seq []

/-- Loop body of utf16 → utf8 unsafe_transcode_strict_surr_, utf.hpp 3626–3661. -/
def ustep16to8Strict (room ch : Nat) (t : List Nat) : Step :=
  let seq := ch :: t
  let required := if ch < 0x80 then 1 else if ch < 0x800 then 2 else if !isHigh ch then 3 else 4
  if room < 4 ∧ required > room then .ret seq .insufficient []
  else if ch < 0x80 then emit room 0 [tr8 ch] t seq []
  else if ch < 0x800 then emit room 0 (put2 ch) t seq []
  else if !isHigh ch then emit room 0 (put3 ch) t seq []
  else
    match t with
    | ch2 :: t2 => emit room 0 (put4 (fromPair ch ch2)) t2 seq []
    | [] => .ub

/-- utf16 → utf8 unsafe_transcode, utf.hpp 3540–3562. -/
def unsafeTranscode16to8 (lax : Bool) (room : Nat) (src : List Nat) : Option TR :=
  early room src (if !lax then run ustep16to8Strict room src else run ustep16to8Lax room src)

/-- Loop body of utf32 → utf8 unsafe_transcode, utf.hpp 2234–2265 (a value ≥ 0x110000 writes nothing). -/
def ustep32to8 (room ch : Nat) (t : List Nat) : Step :=
  let seq := ch :: t
  let required := if ch < 0x80 then 1 else if ch < 0x800 then 2 else if ch < 0x10000 then 3 else 4
  if room < 4 ∧ required > room then .ret seq .insufficient []
  else if ch < 0x80 then emit room 0 [tr8 ch] t seq []
  else if ch < 0x800 then emit room 0 (put2 ch) t seq []
  else if ch < 0x10000 then emit room 0 (put3 ch) t seq []
  else if ch < 0x110000 then emit room 0 (put4 ch) t seq []
  else .cont [] t []

/-- utf32 → utf8 unsafe_transcode, utf.hpp 2215–2267. -/
def unsafeTranscode32to8 (room : Nat) (src : List Nat) : Option TR := early room src (run ustep32to8 room src)

/-- Loop body of utf32 → utf16 unsafe_transcode, utf.hpp 2882–2900. -/
def ustep32to16 (room ch : Nat) (t : List Nat) : Step :=
  let seq := ch :: t
  let required := if ch < 0x10000 then 1 else 2
  if room < 2 ∧ room < required then .ret seq .insufficient []
  else if ch < 0x10000 then emit room 0 [tr16 ch] t seq []
  else
    let sub := ch - 0x10000
    emit room 0 [tr16 (0xD800 ||| (sub >>> 10)), tr16 (0xDC00 ||| (sub &&& 0x3FF))] t seq []

/-- bypass_unsafe_transcode, charset.hpp 719–742 (utf32 → utf32, utf.hpp 831–840). -/
def bypassUnsafe (room : Nat) (src : List Nat) : Option TR :=
  if src ≠ [] then
    if src.length ≤ room then some ⟨[], src, .completed, []⟩
    else some ⟨src.drop room, src.take room, .insufficient, []⟩
  else some ⟨src, [], .completed, []⟩

/-- static_transcoder<…>::unsafe_transcode. -/
def unsafeTranscode : Enc → Enc → Flags → Nat → List Nat → Option TR
  | .utf8, .utf8, _, room, src => unsafeTranscode8to8 room src
  | .utf8, .utf16, _, room, src => run ustep8to16 room src
  | .utf8, .utf32, _, room, src => unsafeTranscode8to32 room src
  | .utf16, .utf8, f, room, src => unsafeTranscode16to8 f.lax room src
  | .utf16, .utf16, _, room, src => unsafeTranscode16to16 room src
  | .utf16, .utf32, f, room, src => run (ustep16to32 f.lax) room src
  | .utf32, .utf8, _, room, src => unsafeTranscode32to8 room src
  | .utf32, .utf16, _, room, src => run ustep32to16 room src
  | .utf32, .utf32, _, room, src => bypassUnsafe room src

/-! ## unsafe_transcode_size -/

/-- First loop of utf8 → utf32 unsafe_transcode_size, utf.hpp 1660–1663. -/
def countNonCont : List Nat → Nat
  | [] => 0
  | ch :: t => (if isCont ch then 0 else 1) + countNonCont t

/-- Second loop of utf8 → utf32 unsafe_transcode_size, utf.hpp 1672–1678. -/
def usize8to32Loop (limit size : Nat) : List Nat → SR
  | [] => ⟨size, [], .completed⟩
  | ch :: t =>
    if size ≥ limit then ⟨size, ch :: t, .insufficient⟩
    else usize8to32Loop limit (size + if isCont ch then 0 else 1) t

/-- utf8 → utf32 unsafe_transcode_size, utf.hpp 1649–1681. -/
def usize8to32 (limit : Nat) (src : List Nat) : Option SR :=
  if src.length ≤ limit then some ⟨countNonCont src, [], .completed⟩
  else some (usize8to32Loop limit 0 src)

/-- utf8 → utf8 unsafe_transcode_size, utf.hpp 266–280. -/
def usize8to8 (limit : Nat) (src : List Nat) : Option SR :=
  if src.length ≤ limit then some ⟨src.length, [], .completed⟩
  else (backUp8 src limit).map fun n => ⟨n, src.drop n, .insufficient⟩

/-- Loop body of utf8 → utf16 unsafe_transcode_size, utf.hpp 3368–3381. -/
def ustepSize8to16 (limit size ch0 : Nat) (t : List Nat) : SStep :=
  let x := if ch0 < 0x80 then 0x09 else if ch0 < 0xE0 then 0x0A else if ch0 < 0xF0 then 0x0B else 0x14
  let newSize := size + (x >>> 3)
  if newSize > limit then .ret ⟨size, ch0 :: t, .insufficient⟩
  else if (ch0 :: t).length < x &&& 7 then .ub
  else .cont newSize ((ch0 :: t).drop (x &&& 7))

/-- Loop bodies of utf16 → utf32 unsafe_transcode_size, utf.hpp 2497–2505 (strict), 2507–2520 (lax). -/
def ustepSize16to32 (lax : Bool) (limit size ch : Nat) (t : List Nat) : SStep :=
  if size ≥ limit then .ret ⟨size, ch :: t, .insufficient⟩
  else if lax then
    match t with
    | ch2 :: t2 => if isHigh ch && isLow ch2 then .cont (size + 1) t2 else .cont (size + 1) t
    | [] => .cont (size + 1) t
  else if isHigh ch then
    match t with
    | _ :: t2 => .cont (size + 1) t2
    | [] => .ub
  else .cont (size + 1) t

/-- utf16 → utf16 unsafe_transcode_size, utf.hpp 566–583. -/
def usize16to16 (limit : Nat) (src : List Nat) : Option SR :=
  if src.length ≤ limit then some ⟨src.length, [], .completed⟩
  else
    if limit > 0 then
      match src[limit - 1]?, src[limit]? with
      | some a, some b =>
        let n := if isHigh a && isLow b then limit - 1 else limit
        some ⟨n, src.drop n, .insufficient⟩
      | _, _ => none
    else some ⟨limit, src.drop limit, .insufficient⟩

/-- Loop body of utf16 → utf8 unsafe_transcode_size (strict), utf.hpp 3675–3689. -/
def ustepSize16to8 (limit size ch : Nat) (t : List Nat) : SStep :=
  let surrogate := isHigh ch
  let x := if ch < 0x80 then 0x9 else if ch < 0x800 then 0xA else if surrogate then 0x14 else 0xB
  let newSize := size + (x &&& 7)
  if newSize > limit then .ret ⟨size, ch :: t, .insufficient⟩
  else if (ch :: t).length < x >>> 3 then .ub
  else .cont newSize ((ch :: t).drop (x >>> 3))

/-- utf16 → utf8 unsafe_transcode_size, utf.hpp 3665–3694. -/
def usize16to8 (lax : Bool) (limit : Nat) (src : List Nat) : Option SR :=
  if !lax then runSize (ustepSize16to8 limit) 0 src else runSize (sizeStep16to8Cont limit) 0 src

/-- The two loops of utf32 → utf8 unsafe_transcode_size, utf.hpp 2281–2308. The first runs while
`size < limit - 4` and checks nothing; once left, the second, which checks, goes on: since size does not
decrease, that is the loop whose body chooses by that condition. -/
def ustepSize32to8 (limit size ch : Nat) (t : List Nat) : SStep :=
  let chSize := if ch < 0x80 then 1 else if ch < 0x800 then 2 else if ch < 0x10000 then 3 else 4
  if size + 4 < limit then .cont (size + chSize) t
  else if size + chSize > limit then .ret ⟨size, ch :: t, .insufficient⟩
  else .cont (size + chSize) t

/-- Loop bodies of utf32 → utf16 unsafe_transcode_size, utf.hpp 2912–2930. -/
def ustepSize32to16 (checked : Bool) (limit size ch : Nat) (t : List Nat) : SStep :=
  let chSize := 1 + (if 0x10000 ≤ ch then 1 else 0)
  if checked && decide (size + chSize > limit) then .ret ⟨size + chSize - chSize, ch :: t, .insufficient⟩
  else .cont (size + chSize) t

/-- utf32 → utf16 unsafe_transcode_size, utf.hpp 2904–2931. -/
def usize32to16 (limit : Nat) (src : List Nat) : Option SR :=
  runSize (ustepSize32to16 (decide (¬ src.length * 2 ≤ limit)) limit) 0 src

/-- utf32 → utf32 unsafe_transcode_size, utf.hpp 842–852. -/
def usize32to32 (limit : Nat) (src : List Nat) : Option SR :=
  if src.length ≤ limit then some ⟨src.length, [], .completed⟩
  else some ⟨limit, src.drop limit, .insufficient⟩

/-- static_transcoder<…>::unsafe_transcode_size. -/
def unsafeTranscodeSize : Enc → Enc → Flags → Nat → List Nat → Option SR
  | .utf8, .utf8, _, limit, src => usize8to8 limit src
  | .utf8, .utf16, _, limit, src => runSize (ustepSize8to16 limit) 0 src
  | .utf8, .utf32, _, limit, src => usize8to32 limit src
  | .utf16, .utf8, f, limit, src => usize16to8 f.lax limit src
  | .utf16, .utf16, _, limit, src => usize16to16 limit src
  | .utf16, .utf32, f, limit, src => runSize (ustepSize16to32 f.lax limit) 0 src
  | .utf32, .utf8, _, limit, src => runSize (ustepSize32to8 limit) 0 src
  | .utf32, .utf16, _, limit, src => usize32to16 limit src
  | .utf32, .utf32, _, limit, src => usize32to32 limit src

end Strf.Utf

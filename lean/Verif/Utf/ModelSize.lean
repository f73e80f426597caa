import Verif.Utf.Model
/-!
# Model of the transcode_size functions of include/strf/detail/utf.hpp

`limit` is a `std::ptrdiff_t` in the code; it is taken non-negative here.
-/
namespace Strf.Utf

/-- Loop body of utf8 → utf32 transcode_size_stop_on_inv_seq_, utf.hpp 1495–1542. -/
def sizeStep8to32Stop (f : Flags) (limit size ch0 : Nat) (t : List Nat) : SStep :=
  let seq := ch0 :: t
  let invalid := SStep.ret ⟨size, seq, .invalid⟩
  let ok := fun next => if size ≥ limit then SStep.ret ⟨size, seq, .insufficient⟩ else .cont (size + 1) next
  if ch0 ≥ 0x80 then
    if 0xC0 = ch0 &&& 0xE0 then
      match t with
      | [] => invalid
      | ch1 :: t1 => if ch0 > 0xC1 ∧ isCont ch1 then ok t1 else invalid
    else if 0xE0 = ch0 then
      match t with
      | ch1 :: ch2 :: t2 => if ch1 &&& 0xE0 = 0xA0 ∧ isCont ch2 then ok t2 else invalid
      | _ => invalid
    else if 0xE0 = ch0 &&& 0xF0 then
      match t with
      | ch1 :: ch2 :: t2 =>
        if (isCont ch1 ∧ first2of3Valid (first2of3 ch0 ch1) f.lax) ∧ isCont ch2 then ok t2 else invalid
      | _ => invalid
    else
      match t with
      | ch1 :: ch2 :: ch3 :: t3 =>
        if (isCont ch1 ∧ first2of4Valid (first2of4 ch0 ch1)) ∧ isCont ch2 ∧ isCont ch3 then ok t3 else invalid
      | _ => invalid
  else ok t

/-- Loop body of utf8 → utf32 transcode_size_continue_on_inv_seq_, utf.hpp 1561–1596. The limit is tested
before the character is read. -/
def sizeStep8to32Cont (f : Flags) (limit size ch0 : Nat) (t : List Nat) : SStep :=
  let seq := ch0 :: t
  if size ≥ limit then .ret ⟨size, seq, .insufficient⟩
  else
    let go := fun next => SStep.cont (size + 1) next
    if 0xC0 = ch0 &&& 0xE0 then
      match t with
      | [] => go t
      | ch1 :: t1 => if ch0 > 0xC1 ∧ isCont ch1 then go t1 else go t
    else if 0xE0 = ch0 then
      match t with
      | [] => go t
      | ch1 :: t1 =>
        if ch1 &&& 0xE0 = 0xA0 then
          match t1 with
          | [] => go t1
          | ch2 :: t2 => if isCont ch2 then go t2 else go t1
        else go t
    else if 0xE0 = ch0 &&& 0xF0 then
      match t with
      | [] => go t
      | ch1 :: t1 =>
        if isCont ch1 ∧ first2of3Valid (first2of3 ch0 ch1) f.lax then
          match t1 with
          | [] => go t1
          | ch2 :: t2 => if isCont ch2 then go t2 else go t1
        else go t
    else
      match t with
      | [] => go t
      | ch1 :: t1 =>
        if isCont ch1 ∧ first2of4Valid (first2of4 ch0 ch1) then
          match t1 with
          | [] => go t1
          | ch2 :: t2 =>
            if isCont ch2 then
              match t2 with
              | [] => go t2
              | ch3 :: t3 => if isCont ch3 then go t3 else go t2
            else go t1
        else go t

/-- utf8 → utf32 transcode_size, utf.hpp 1460–1472. -/
def transcodeSize8to32 (f : Flags) (limit : Nat) (src : List Nat) : Option SR :=
  if f.stop then runSize (sizeStep8to32Stop f limit) 0 src else runSize (sizeStep8to32Cont f limit) 0 src

/-- Loop body of utf8 → utf8 transcode_size_stop_on_inv_seq_, utf.hpp 1842–1889. Sizes are pointer differences:
`total` is `src_end - src_begin`, `src_limit` is `src_begin + min(limit, total)`. -/
def sizeStep8to8Stop (f : Flags) (limit total : Nat) (_size ch0 : Nat) (t : List Nat) : SStep :=
  let seq := ch0 :: t
  let pos := fun (p : List Nat) => total - p.length
  let srcLimit := if total ≥ limit then limit else total
  let invalid := SStep.ret ⟨pos seq, seq, .invalid⟩
  let ok := fun next =>
    if pos next > srcLimit then SStep.ret ⟨pos seq, seq, .insufficient⟩ else .cont (pos next) next
  if ch0 ≥ 0x80 then
    if 0xC0 = ch0 &&& 0xE0 then
      match t with
      | [] => invalid
      | ch1 :: t1 => if ch0 > 0xC1 ∧ isCont ch1 then ok t1 else invalid
    else if 0xE0 = ch0 then
      match t with
      | ch1 :: ch2 :: t2 => if ch1 &&& 0xE0 = 0xA0 ∧ isCont ch2 then ok t2 else invalid
      | _ => invalid
    else if 0xE0 = ch0 &&& 0xF0 then
      match t with
      | ch1 :: ch2 :: t2 =>
        if (isCont ch1 ∧ first2of3Valid (first2of3 ch0 ch1) f.lax) ∧ isCont ch2 then ok t2 else invalid
      | _ => invalid
    else
      match t with
      | ch1 :: ch2 :: ch3 :: t3 =>
        if (isCont ch1 ∧ first2of4Valid (first2of4 ch0 ch1)) ∧ isCont ch2 ∧ isCont ch3 then ok t3 else invalid
      | _ => invalid
  else ok t

/-- Loop body of utf8 → utf8 transcode_size_continue_on_inv_seq_, utf.hpp 1907–1953 (as the code stands: the
last test is `size >= limit`). -/
def sizeStep8to8Cont (f : Flags) (limit size ch0 : Nat) (t : List Nat) : SStep :=
  let seq := ch0 :: t
  let go := fun n next =>
    if size + n ≥ limit then SStep.ret ⟨size, seq, .insufficient⟩ else .cont (size + n) next
  if ch0 < 0x80 then go 1 t
  else if 0xC0 = ch0 &&& 0xE0 then
    match t with
    | [] => go 3 t
    | ch1 :: t1 => if ch0 > 0xC1 ∧ isCont ch1 then go 2 t1 else go 3 t
  else if 0xE0 = ch0 then
    match t with
    | [] => go 3 t
    | ch1 :: t1 =>
      if ch1 &&& 0xE0 = 0xA0 then
        match t1 with
        | [] => go 3 t1
        | ch2 :: t2 => if isCont ch2 then go 3 t2 else go 3 t1
      else go 3 t
  else if 0xE0 = ch0 &&& 0xF0 then
    match t with
    | [] => go 3 t
    | ch1 :: t1 =>
      if isCont ch1 ∧ first2of3Valid (first2of3 ch0 ch1) f.lax then
        match t1 with
        | [] => go 3 t1
        | ch2 :: t2 => if isCont ch2 then go 3 t2 else go 3 t1
      else go 3 t
  else
    match t with
    | [] => go 3 t
    | ch1 :: t1 =>
      if isCont ch1 ∧ first2of4Valid (first2of4 ch0 ch1) then
        match t1 with
        | [] => go 3 t1
        | ch2 :: t2 =>
          if isCont ch2 then
            match t2 with
            | [] => go 3 t2
            | ch3 :: t3 => if isCont ch3 then go 4 t3 else go 3 t2
          else go 3 t1
      else go 3 t

/-- utf8 → utf8 transcode_size, utf.hpp 1811–1823. -/
def transcodeSize8to8 (f : Flags) (limit : Nat) (src : List Nat) : Option SR :=
  if f.stop then runSize (sizeStep8to8Stop f limit src.length) 0 src
  else runSize (sizeStep8to8Cont f limit) 0 src

/-- Loop body of utf8 → utf16 transcode_size_stop_on_inv_seq_, utf.hpp 3193–3243. -/
def sizeStep8to16Stop (f : Flags) (limit size ch0 : Nat) (t : List Nat) : SStep :=
  let seq := ch0 :: t
  let invalid := SStep.ret ⟨size + 1 - 1, seq, .invalid⟩
  let ok := fun n next =>
    if size + n > limit then SStep.ret ⟨size, seq, .insufficient⟩ else .cont (size + n) next
  if ch0 ≥ 0x80 then
    if 0xC0 = ch0 &&& 0xE0 then
      match t with
      | [] => invalid
      | ch1 :: t1 => if ch0 > 0xC1 ∧ isCont ch1 then ok 1 t1 else invalid
    else if 0xE0 = ch0 then
      match t with
      | ch1 :: ch2 :: t2 => if ch1 &&& 0xE0 = 0xA0 ∧ isCont ch2 then ok 1 t2 else invalid
      | _ => invalid
    else if 0xE0 = ch0 &&& 0xF0 then
      match t with
      | ch1 :: ch2 :: t2 =>
        if (isCont ch1 ∧ first2of3Valid (first2of3 ch0 ch1) f.lax) ∧ isCont ch2 then ok 1 t2 else invalid
      | _ => invalid
    else
      match t with
      | ch1 :: ch2 :: ch3 :: t3 =>
        if (isCont ch1 ∧ first2of4Valid (first2of4 ch0 ch1)) ∧ isCont ch2 ∧ isCont ch3 then ok 2 t3 else invalid
      | _ => invalid
  else ok 1 t

/-- Loop body of utf8 → utf16 transcode_size_continue_on_inv_seq_, utf.hpp 3265–3304. -/
def sizeStep8to16Cont (f : Flags) (limit size ch0 : Nat) (t : List Nat) : SStep :=
  let seq := ch0 :: t
  let go := fun n next =>
    if size + n > limit then SStep.ret ⟨size, seq, .insufficient⟩ else .cont (size + n) next
  if 0xC0 = ch0 &&& 0xE0 then
    match t with
    | [] => go 1 t
    | ch1 :: t1 => if ch0 > 0xC1 ∧ isCont ch1 then go 1 t1 else go 1 t
  else if 0xE0 = ch0 then
    match t with
    | [] => go 1 t
    | ch1 :: t1 =>
      if ch1 &&& 0xE0 = 0xA0 then
        match t1 with
        | [] => go 1 t1
        | ch2 :: t2 => if isCont ch2 then go 1 t2 else go 1 t1
      else go 1 t
  else if 0xE0 = ch0 &&& 0xF0 then
    match t with
    | [] => go 1 t
    | ch1 :: t1 =>
      if isCont ch1 ∧ first2of3Valid (first2of3 ch0 ch1) f.lax then
        match t1 with
        | [] => go 1 t1
        | ch2 :: t2 => if isCont ch2 then go 1 t2 else go 1 t1
      else go 1 t
  else
    match t with
    | [] => go 1 t
    | ch1 :: t1 =>
      if isCont ch1 ∧ first2of4Valid (first2of4 ch0 ch1) then
        match t1 with
        | [] => go 1 t1
        | ch2 :: t2 =>
          if isCont ch2 then
            match t2 with
            | [] => go 1 t2
            | ch3 :: t3 => if isCont ch3 then go 2 t3 else go 1 t2
          else go 1 t1
      else go 1 t

/-- utf8 → utf16 transcode_size, utf.hpp 3158–3170. -/
def transcodeSize8to16 (f : Flags) (limit : Nat) (src : List Nat) : Option SR :=
  if f.stop then runSize (sizeStep8to16Stop f limit) 0 src else runSize (sizeStep8to16Cont f limit) 0 src

/-- Loop body of utf16 → utf32 transcode_size_continue_on_inv_seq_, utf.hpp 2388–2402. -/
def sizeStep16to32Cont (limit size ch : Nat) (t : List Nat) : SStep :=
  if size ≥ limit then .ret ⟨size, ch :: t, .insufficient⟩
  else
    match t with
    | [] => .cont (size + 1) t
    | ch2 :: t2 => if isHigh ch ∧ isLow ch2 then .cont (size + 1) t2 else .cont (size + 1) t

/-- Loop body of utf16 → utf32 transcode_size_stop_on_inv_seq_, utf.hpp 2415–2432. -/
def sizeStep16to32Stop (limit size ch : Nat) (t : List Nat) : SStep :=
  let seq := ch :: t
  let invalid := SStep.ret ⟨size, seq, .invalid⟩
  let ok := fun next => if size ≥ limit then SStep.ret ⟨size, seq, .insufficient⟩ else .cont (size + 1) next
  if isSurrogate ch then
    match t with
    | [] => invalid
    | ch2 :: t2 => if isHigh ch ∧ isLow ch2 then ok t2 else invalid
  else ok t

/-- utf16 → utf32 transcode_size, utf.hpp 2364–2376. -/
def transcodeSize16to32 (f : Flags) (limit : Nat) (src : List Nat) : Option SR :=
  if !f.lax && f.stop then runSize (sizeStep16to32Stop limit) 0 src else runSize (sizeStep16to32Cont limit) 0 src

/-- Loop body of utf16 → utf16 transcode_size_, utf.hpp 2644–2665; sizes are pointer differences. -/
def sizeStep16to16 (hasLimit stop : Bool) (limit total : Nat) (_size ch : Nat) (t : List Nat) : SStep :=
  let seq := ch :: t
  let pos := fun (p : List Nat) => total - p.length
  let srcLimit := if total ≥ limit then limit else total
  let ok := fun next =>
    if hasLimit ∧ pos next > srcLimit then SStep.ret ⟨pos seq, seq, .insufficient⟩ else .cont (pos next) next
  let lone := if stop then SStep.ret ⟨pos seq, seq, .invalid⟩ else ok t
  if isSurrogate ch then
    match t with
    | [] => lone
    | ch2 :: t2 => if isHigh ch ∧ isLow ch2 then ok t2 else lone
  else ok t

/-- utf16 → utf16 transcode_size, utf.hpp 2604–2627. -/
def transcodeSize16to16 (f : Flags) (limit : Nat) (src : List Nat) : Option SR :=
  runSize (sizeStep16to16 (decide (src.length > limit)) (!f.lax && f.stop) limit src.length) 0 src

/-- Loop body of utf16 → utf8 transcode_size_stop_on_inv_seq_, utf.hpp 3474–3499. -/
def sizeStep16to8Stop (limit size ch : Nat) (t : List Nat) : SStep :=
  let seq := ch :: t
  let ok := fun n next =>
    if size + n > limit then SStep.ret ⟨size, seq, .insufficient⟩ else .cont (size + n) next
  if ch < 0x80 then ok 1 t
  else if ch < 0x800 then ok 2 t
  else if isSurrogate ch then
    match t with
    | [] => .ret ⟨size, seq, .invalid⟩
    | ch2 :: t2 => if isHigh ch ∧ isLow ch2 then ok 4 t2 else .ret ⟨size, seq, .invalid⟩
  else ok 3 t

/-- Loop body of utf16 → utf8 transcode_size_continue_on_inv_seq_, utf.hpp 3510–3541. -/
def sizeStep16to8Cont (limit size ch : Nat) (t : List Nat) : SStep :=
  let seq := ch :: t
  let go := fun n (next : List Nat) =>
    if size + n ≥ limit then
      if size + n > limit then SStep.ret ⟨size, seq, .insufficient⟩
      else if next ≠ [] then .ret ⟨size + n, next, .insufficient⟩
      else .ret ⟨size + n, [], .completed⟩
    else .cont (size + n) next
  if ch < 0x80 then go 1 t
  else if ch < 0x800 then go 2 t
  else
    match t with
    | [] => go 3 t
    | ch2 :: t2 => if isHigh ch ∧ isLow ch2 then go 4 t2 else go 3 t

/-- utf16 → utf8 transcode_size, utf.hpp 3452–3464. -/
def transcodeSize16to8 (f : Flags) (limit : Nat) (src : List Nat) : Option SR :=
  if !f.lax && f.stop then runSize (sizeStep16to8Stop limit) 0 src else runSize (sizeStep16to8Cont limit) 0 src

/-- Loop body of utf32 → utf8 transcode_size_, utf.hpp 2195–2213. -/
def sizeStep32to8 (stopOnLimit stop strict : Bool) (limit size ch : Nat) (t : List Nat) : SStep :=
  let invalid : Bool := (strict && isSurrogate ch) || decide (ch ≥ 0x110000)
  if stop && invalid then .ret ⟨size, ch :: t, .invalid⟩
  else
    let chSize := if invalid then 3
      else 1 + (if ch ≥ 0x80 then 1 else 0) + (if ch ≥ 0x800 then 1 else 0) + (if ch ≥ 0x10000 then 1 else 0)
    if stopOnLimit && decide (size + chSize > limit) then .ret ⟨size + chSize - chSize, ch :: t, .insufficient⟩
    else .cont (size + chSize) t

/-- utf32 → utf8 transcode_size, utf.hpp 2152–2182. -/
def transcodeSize32to8 (f : Flags) (limit : Nat) (src : List Nat) : Option SR :=
  runSize (sizeStep32to8 (decide (src.length * 4 > limit)) f.stop (!f.lax) limit) 0 src

/-- Loop body of utf32 → utf16 transcode_size_, utf.hpp 2849–2867. -/
def sizeStep32to16 (stopOnLimit stop strict : Bool) (limit size ch : Nat) (t : List Nat) : SStep :=
  let invalid : Bool := (strict && isSurrogate ch) || decide (ch ≥ 0x110000)
  if stop && invalid then .ret ⟨size, ch :: t, .invalid⟩
  else
    let chSize := if invalid then 1 else if ch < 0x10000 then 1 else 2
    if stopOnLimit && decide (size + chSize > limit) then .ret ⟨size + chSize - chSize, ch :: t, .insufficient⟩
    else .cont (size + chSize) t

/-- utf32 → utf16 transcode_size, utf.hpp 2802–2836. -/
def transcodeSize32to16 (f : Flags) (limit : Nat) (src : List Nat) : Option SR :=
  runSize (sizeStep32to16 (decide (src.length * 2 > limit)) f.stop (!f.lax) limit) 0 src

/-- `*src >= 0x110000`, utf.hpp 3014, 3019, 3028, 3037: with a signed 32-bit unit type (`wchar_t` on Linux) a
unit with the top bit set compares as a negative number. -/
def tooBig (signed : Bool) (ch : Nat) : Bool := if signed && decide (ch ≥ 0x80000000) then false else decide (ch ≥ 0x110000)

/-- Loop bodies of utf32 → utf32 transcode_size with the stop flag, utf.hpp 3012–3046. -/
def sizeStep32to32 (signed hasLimit strict : Bool) (limit size ch : Nat) (t : List Nat) : SStep :=
  if tooBig signed ch || (strict && isSurrogate ch) then .ret ⟨size, ch :: t, .invalid⟩
  else if hasLimit && decide (size ≥ limit) then .ret ⟨size, ch :: t, .insufficient⟩
  else .cont (size + 1) t

/-- utf32 → utf32 transcode_size, utf.hpp 2994–3048. -/
def transcodeSize32to32 (signed : Bool) (f : Flags) (limit : Nat) (src : List Nat) : Option SR :=
  if !f.stop then
    if src.length ≤ limit then some ⟨src.length, [], .completed⟩
    else some ⟨limit, src.drop limit, .insufficient⟩
  else runSize (sizeStep32to32 signed (decide (¬ src.length ≤ limit)) (!f.lax) limit) 0 src

/-- static_transcoder<…>::transcode_size. `signed` is the signedness of the 32-bit source unit type; it has
no influence for other sources. -/
def transcodeSize (signed : Bool) : Enc → Enc → Flags → Nat → List Nat → Option SR
  | .utf8, .utf8 => transcodeSize8to8
  | .utf8, .utf16 => transcodeSize8to16
  | .utf8, .utf32 => transcodeSize8to32
  | .utf16, .utf8 => transcodeSize16to8
  | .utf16, .utf16 => transcodeSize16to16
  | .utf16, .utf32 => transcodeSize16to32
  | .utf32, .utf8 => transcodeSize32to8
  | .utf32, .utf16 => transcodeSize32to16
  | .utf32, .utf32 => transcodeSize32to32 signed

/-! ## count_codepoints -/

/-- Loop of count_codepoints: `while (it < src_end && count < max_count)`; the body yields the next position. -/
def countLoop (step : Nat → List Nat → List Nat) (count maxCount : Nat) : List Nat → Option (Nat × List Nat)
  | [] => some (count, [])
  | ch :: t =>
    if count < maxCount then
      if _h : (step ch t).length ≤ t.length then countLoop step (count + 1) maxCount (step ch t) else none
    else some (count, ch :: t)
  termination_by src => src.length
  decreasing_by simp; omega

/-- Loop body of static_charset<CharT, csid_utf8>::count_codepoints, utf.hpp 1996–2026 (lax_surr is false). -/
def countStep8 (ch0 : Nat) (t : List Nat) : List Nat :=
  if 0xC0 = ch0 &&& 0xE0 then
    match t with
    | [] => t
    | ch1 :: t1 => if ch0 > 0xC1 ∧ isCont ch1 then t1 else t
  else if 0xE0 = ch0 then
    match t with
    | [] => t
    | ch1 :: t1 =>
      if ch1 &&& 0xE0 = 0xA0 then
        match t1 with
        | [] => t1
        | ch2 :: t2 => if isCont ch2 then t2 else t1
      else t
  else if 0xE0 = ch0 &&& 0xF0 then
    match t with
    | [] => t
    | ch1 :: t1 =>
      if isCont ch1 ∧ first2of3Valid (first2of3 ch0 ch1) false then
        match t1 with
        | [] => t1
        | ch2 :: t2 => if isCont ch2 then t2 else t1
      else t
  else
    match t with
    | [] => t
    | ch1 :: t1 =>
      if isCont ch1 ∧ first2of4Valid (first2of4 ch0 ch1) then
        match t1 with
        | [] => t1
        | ch2 :: t2 =>
          if isCont ch2 then
            match t2 with
            | [] => t2
            | ch3 :: t3 => if isCont ch3 then t3 else t2
          else t1
      else t

/-- Loop body of static_charset<CharT, csid_utf16>::count_codepoints, utf.hpp 2706–2714. -/
def countStep16 (ch : Nat) (t : List Nat) : List Nat :=
  match t with
  | [] => t
  | ch2 :: t2 => if isHigh ch ∧ isLow ch2 then t2 else t

/-- static_charset<CharT, csid_utf32>::count_codepoints, utf.hpp 1259–1269 (and count_codepoints_fast,
1246–1257, which is the same). -/
def count32 (maxCount : Nat) (src : List Nat) : Option (Nat × List Nat) :=
  if maxCount ≤ src.length then some (maxCount, src.drop maxCount) else some (src.length, [])

/-- static_charset<…>::count_codepoints: the count and the position after the last character counted. -/
def countCodepoints : Enc → Nat → List Nat → Option (Nat × List Nat)
  | .utf8, m, src => countLoop countStep8 0 m src
  | .utf16, m, src => countLoop countStep16 0 m src
  | .utf32, m, src => count32 m src

/-- First loop of utf8 count_codepoints_fast, utf.hpp 1966–1971. -/
def countFast8 (count maxCount : Nat) : List Nat → Nat × List Nat
  | [] => (count, [])
  | ch :: t =>
    if count < maxCount then countFast8 (if isCont ch then count else count + 1) maxCount t
    else (count, ch :: t)

/-- Second loop of utf8 count_codepoints_fast, utf.hpp 1972–1974. -/
def skipCont : List Nat → List Nat
  | [] => []
  | ch :: t => if isCont ch then skipCont t else ch :: t

/-- Loop of utf16 count_codepoints_fast, utf.hpp 2684–2694, entered with a non-empty source. Here `it` may
pass the end by one (after a high surrogate in last place), in which case `src_end` is returned. -/
def countFast16 (count maxCount : Nat) : List Nat → Nat × List Nat
  | [] => (count, [])
  | ch :: t =>
    if count < maxCount then
      if isHigh ch then
        match t with
        | [] => (count + 1, [])
        | _ :: t2 => countFast16 (count + 1) maxCount t2
      else countFast16 (count + 1) maxCount t
    else (count, ch :: t)

/-- static_charset<…>::count_codepoints_fast, utf.hpp 1957–1976, 2672–2695, 1246–1257. -/
def countCodepointsFast : Enc → Nat → List Nat → Option (Nat × List Nat)
  | .utf8, m, src => let r := countFast8 0 m src; some (r.1, skipCont r.2)
  | .utf16, m, src => some (countFast16 0 m src)
  | .utf32, m, src => count32 m src

end Strf.Utf

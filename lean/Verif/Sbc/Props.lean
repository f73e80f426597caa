import Verif.Sbc.LoopLemmas
import Verif.Sbc.Published
/-
C22–C24, C47: the single-byte charsets. `all` lists the 25 charsets of strf.
What must happen is said in Spec.lean (`byteOf`, `byteProblem`, `charProblem`, `Outcome`), in terms of what the bytes of
the charset mean; `published` (Published.lean) has the tables of the Unicode Consortium.
-/
namespace Strf.Sbc
open Strf.Utf (Reason SR)
open Strf.Charset (Event Res)

theorem forall_all {P : Impl → Prop}
    (h0 : P ascii) (h1 : P iso_8859_1) (h2 : P iso_8859_2) (h3 : P iso_8859_3) (h4 : P iso_8859_4)
    (h5 : P iso_8859_5) (h6 : P iso_8859_6) (h7 : P iso_8859_7) (h8 : P iso_8859_8) (h9 : P iso_8859_9)
    (h10 : P iso_8859_10) (h11 : P iso_8859_11) (h12 : P iso_8859_13) (h13 : P iso_8859_14) (h14 : P iso_8859_15)
    (h15 : P iso_8859_16) (h16 : P windows_1250) (h17 : P windows_1251) (h18 : P windows_1252)
    (h19 : P windows_1253) (h20 : P windows_1254) (h21 : P windows_1255) (h22 : P windows_1256)
    (h23 : P windows_1257) (h24 : P windows_1258) :
    ∀ I ∈ all, P I := by
  unfold all
  simp only [List.forall_mem_cons]
  exact ⟨h0, h1, h2, h3, h4, h5, h6, h7, h8, h9, h10, h11, h12, h13, h14, h15, h16, h17, h18, h19, h20, h21, h22, h23,
    h24, by simp⟩

theorem good_all : ∀ I ∈ all, Good I :=
  forall_all
    good_ascii good_iso_8859_1 good_iso_8859_2 good_iso_8859_3 good_iso_8859_4 good_iso_8859_5 good_iso_8859_6
    good_iso_8859_7 good_iso_8859_8 good_iso_8859_9 good_iso_8859_10 good_iso_8859_11 good_iso_8859_13
    good_iso_8859_14 good_iso_8859_15 good_iso_8859_16 good_windows_1250 good_windows_1251 good_windows_1252
    good_windows_1253 good_windows_1254 good_windows_1255 good_windows_1256 good_windows_1257 good_windows_1258

/-- Characters that the encoding tables of windows-1254 and windows-1258 get wrong. -/
def Defect (I : Impl) (ch : Nat) : Prop :=
  (I = windows_1254 ∧ ch ∈ [0xD0, 0xDD, 0xDE, 0xF0, 0xFD, 0xFE]) ∨ (I = windows_1258 ∧ ch = 0x9F)

theorem inv_all : ∀ I ∈ all, ∀ ch, (I = windows_1254 → ch ∉ [0xD0, 0xDD, 0xDE, 0xF0, 0xFD, 0xFE]) →
    (I = windows_1258 → ch ≠ 0x9F) → Inv1 I ch :=
  forall_all
    (fun ch _ _ => inverse_ascii ch)
    (fun ch _ _ => inverse_iso_8859_1 ch)
    (fun ch _ _ => inverse_iso_8859_2 ch)
    (fun ch _ _ => inverse_iso_8859_3 ch)
    (fun ch _ _ => inverse_iso_8859_4 ch)
    (fun ch _ _ => inverse_iso_8859_5 ch)
    (fun ch _ _ => inverse_iso_8859_6 ch)
    (fun ch _ _ => inverse_iso_8859_7 ch)
    (fun ch _ _ => inverse_iso_8859_8 ch)
    (fun ch _ _ => inverse_iso_8859_9 ch)
    (fun ch _ _ => inverse_iso_8859_10 ch)
    (fun ch _ _ => inverse_iso_8859_11 ch)
    (fun ch _ _ => inverse_iso_8859_13 ch)
    (fun ch _ _ => inverse_iso_8859_14 ch)
    (fun ch _ _ => inverse_iso_8859_15 ch)
    (fun ch _ _ => inverse_iso_8859_16 ch)
    (fun ch _ _ => inverse_windows_1250 ch)
    (fun ch _ _ => inverse_windows_1251 ch)
    (fun ch _ _ => inverse_windows_1252 ch)
    (fun ch _ _ => inverse_windows_1253 ch)
    (fun ch a _ => inverse_but_windows_1254 ch (a rfl))
    (fun ch _ _ => inverse_windows_1255 ch)
    (fun ch _ _ => inverse_windows_1256 ch)
    (fun ch _ _ => inverse_windows_1257 ch)
    (fun ch _ b => inverse_but_windows_1258 ch (b rfl))

theorem inv_of_not_defect {I : Impl} (hI : I ∈ all) {ch : Nat} (h : ¬ Defect I ch) : Inv1 I ch :=
  inv_all I hI ch (fun e m => h (.inl ⟨e, m⟩)) (fun e m => h (.inr ⟨e, m⟩))

theorem not_defect_of_good {I : Impl} (h4 : I ≠ windows_1254) (h8 : I ≠ windows_1258) (ch : Nat) : ¬ Defect I ch := by
  rintro (⟨e, _⟩ | ⟨e, _⟩)
  · exact h4 e
  · exact h8 e

/-! ### C22: decoding and encoding are inverse -/

/-- C22, first half: the code point of a valid byte is encoded as that byte. -/
theorem encode_decode_byte : ∀ I ∈ all, ∀ b, b < 256 → I.isValid b = true → I.encode (I.decode b) = b :=
  fun I hI => (good_all I hI).back

/-- C22, second half, except for the characters of `Defect`: whatever is encoded as a byte (not as an out-of-range
value) is what this valid byte decodes to. U+FFFD is encoded as '?'. -/
theorem decode_encode_char_partial : ∀ I ∈ all, ∀ ch, ¬ Defect I ch → I.encode ch < 0x100 → ch ≠ 0xFFFD →
    I.isValid (I.encode ch) = true ∧ I.decode (I.encode ch) = ch := by
  intro I hI ch hd h1 h2
  have e := inv_of_not_defect hI hd h1 h2
  refine ⟨?_, e⟩
  cases hv : I.isValid (I.encode ch) with
  | true => rfl
  | false => rw [((good_all I hI).valid _ h1).1 hv] at e; exact absurd e.symm h2

/-- The second half of C22 fails in windows-1254: Icelandic eth is encoded as the byte of g with breve. -/
theorem windows_1254_encode_wrong : windows_1254.encode 0xF0 = 0xF0 ∧ windows_1254.decode 0xF0 = 0x11F := by
  decide +kernel

/-- The same in windows-1258: the control character U+009F is encoded as the byte of Y with diaeresis. -/
theorem windows_1258_encode_wrong : windows_1258.encode 0x9F = 0x9F ∧ windows_1258.decode 0x9F = 0x178 := by
  rw [encode_windows_1258]; decide +kernel

/-- Each charset is a bijection between its valid bytes and its characters. -/
theorem decode_injective : ∀ I ∈ all, ∀ b c, b < 256 → c < 256 → I.isValid b = true → I.isValid c = true →
    I.decode b = I.decode c → b = c := by
  intro I hI b c hb hc vb vc e
  rw [← encode_decode_byte I hI b hb vb, e, encode_decode_byte I hI c hc vc]

/-- Bytes are valid just if they do not decode to the replacement character; ASCII is common to all. -/
theorem valid_iff_decodes : ∀ I ∈ all, (∀ b, b < 256 → (I.isValid b = true ↔ I.decode b ≠ 0xFFFD)) ∧
    ∀ b, b < 0x80 → I.decode b = b ∧ I.encode b = b ∧ I.isValid b = true := by
  intro I hI
  refine ⟨fun b hb => ?_, (good_all I hI).ascii⟩
  have := (good_all I hI).valid b hb
  cases hv : I.isValid b <;> rw [hv] at this <;> simp at this ⊢ <;> exact this

example : windows_1252 ∈ all ∧ windows_1252.decode 0x80 = 0x20AC ∧ windows_1252.encode 0x20AC = 0x80 ∧
    ¬ Defect windows_1252 0x20AC := by
  refine ⟨by simp [all], by decide +kernel, by decide +kernel, ?_⟩
  rintro (⟨_, h⟩ | ⟨_, h⟩) <;> simp at h

/-! ### C47: the bytes mean what the published tables say -/

/-- The check that `decode_published` makes of one byte. -/
def agrees (I : Impl) (table : List (Option Nat)) (b : Nat) : Bool :=
  match meaning table b with
  | some c => I.decode b == c
  | none => !I.isValid b || (decide (0x80 ≤ b) && decide (b < 0xA0) && I.decode b == b) || (b == 0xCA && I.decode b == 0x5BA)

/-- C47. Bytes that the published tables leave undefined are invalid, or stand for the control character of the same
value, or (0xCA in windows-1255) for U+05BA. -/
theorem decode_published : ∀ p ∈ List.zip all published, ∀ b, b < 256 →
    (∀ c, meaning p.2 b = some c → p.1.decode b = c) ∧
    (meaning p.2 b = none → p.1.isValid b = false ∨ (0x80 ≤ b ∧ b < 0xA0 ∧ p.1.decode b = b) ∨
      (b = 0xCA ∧ p.1.decode b = 0x5BA)) := by
  have key : ∀ p ∈ List.zip all published, ∀ b : Fin 256, agrees p.1 p.2 b.val = true := by decide +kernel
  intro p hp b hb
  have := key p hp ⟨b, hb⟩
  unfold agrees at this
  dsimp only at this
  constructor
  · intro c hc
    rw [hc] at this
    simpa using this
  · intro hc
    rw [hc] at this
    simp at this
    rcases this with (h | h) | h
    · exact .inl h
    · exact .inr (.inl ⟨h.1.1, h.1.2, h.2⟩)
    · exact .inr (.inr h)

example : all.length = 25 ∧ published.length = 25 ∧ meaning pub_windows_1252 0x80 = some 0x20AC := by decide +kernel

/-! ### C23: transcoding -/

/-- C23 for decoding: each byte becomes the character it means, U+FFFD if invalid. -/
theorem to_u32_outcome : ∀ I ∈ all, ∀ (f : Flags) (room : Nat) (src : List Nat), (∀ b ∈ src, b < 256) →
    ∃ r, toU32 I f room src = some r ∧
      Outcome (fun b => if I.isValid b then I.decode b else 0xFFFD) (byteProblem I) f room src r := by
  intro I hI f room src hb
  have G := good_all I hI
  have hu : toU32 I f room src =
      loop (genAct (fun b => if I.isValid b then I.decode b else 0xFFFD) (byteProblem I) f) room src := by
    unfold toU32
    refine loop_congr src room fun ch hc t => ?_
    rw [actToU32_eq G f ch (hb ch hc) t]
    unfold genAct byteProblem
    cases hv : I.isValid ch with
    | true => simp [hv]
    | false => simp [(G.valid ch (hb ch hc)).1 hv]
  rw [hu]
  exact loop_outcome _ _ f src room

/-- C23 for sanitising: valid bytes are kept, the others become '?'. -/
theorem sanitize_outcome (I : Impl) (f : Flags) (room : Nat) (src : List Nat) :
    ∃ r, sanitize I f room src = some r ∧
      Outcome (fun b => if I.isValid b then b else 0x3F) (byteProblem I) f room src r := by
  unfold sanitize
  rw [loop_congr src room fun ch _ t => actSanitize_eq I f ch t]
  exact loop_outcome _ _ f src room

/-- C23 for encoding, except for the defects of two tables, and for the characters U+E000–U+FFFF in strict mode
(see `private_use_wrong`). -/
theorem from_u32_outcome_partial : ∀ I ∈ all, ∀ (f : Flags) (room : Nat) (src : List Nat),
    (∀ ch ∈ src, ¬ Defect I ch) → (∀ ch ∈ src, f.lax = true ∨ ¬ (0xE000 ≤ ch ∧ ch ≤ 0xFFFF ∧ ch ≠ 0xFFFD)) →
    ∃ r, fromU32 I f room src = some r ∧ Outcome (byteOrQuestion I) (charProblem I f.lax) f room src r := by
  intro I hI f room src hd hf
  unfold fromU32
  rw [loop_congr src room fun ch hc t =>
    actFromU32_eq (good_all I hI) f ch (inv_of_not_defect hI (hd ch hc)) (hf ch hc) t]
  exact loop_outcome _ _ f src room

/-- What is written does not depend on the classification: without stop flags it is right for all sources. -/
theorem from_u32_text : ∀ I ∈ all, ∀ (lax : Bool) (room : Nat) (src : List Nat), (∀ ch ∈ src, ¬ Defect I ch) →
    ∃ r, fromU32 I ⟨lax, false, false⟩ room src = some r ∧ r.out = (src.take room).map (byteOrQuestion I) ∧
      r.rest = src.drop room := by
  intro I hI lax room src hd
  have G := good_all I hI
  unfold fromU32
  rw [loop_congr (b := genAct (byteOrQuestion I) (fun ch => if I.encode ch < 0x100 then .none else
      if isInvalid ⟨lax, false, false⟩ ch then .invalid else .unsupported) ⟨lax, false, false⟩) src room ?_]
  · obtain ⟨r, e, done, todo, e1, e2, e3, e4, e5, e6, e7⟩ := loop_outcome (byteOrQuestion I) (fun ch =>
      if I.encode ch < 0x100 then Problem.none else
      if isInvalid ⟨lax, false, false⟩ ch then .invalid else .unsupported) ⟨lax, false, false⟩ src room
    refine ⟨r, e, ?_⟩
    have : done = src.take room ∧ todo = src.drop room := by
      cases hw : r.why <;> rw [hw] at e7 <;> dsimp only at e7
      · subst e7
        rw [List.append_nil] at e1
        subst e1
        exact ⟨(List.take_of_length_le e4).symm, (List.drop_of_length_le e4).symm⟩
      · rw [e1, ← e7.1]; simp
      · obtain ⟨_, _, _, _, h⟩ := e7; cases h
      · obtain ⟨_, _, _, _, h⟩ := e7; cases h
    rw [e2, e3, this.1, this.2]
    exact ⟨rfl, rfl⟩
  · intro ch hc t
    unfold actFromU32 genAct byteOrQuestion
    dsimp only
    rcases encode_cases G (inv_of_not_defect hI (hd ch hc)) with ⟨h1, h2, h3⟩ | ⟨h1, h2, h3⟩ | ⟨h1, h2, h3⟩
    · rw [if_neg (by omega), if_pos (by omega), h2, h3]; rfl
    · rw [if_neg (by omega), if_pos h3, h2]; simp [Nat.mod_eq_of_lt h3]
    · have hn : ¬ I.encode ch < 0x100 := by omega
      rw [if_pos h3, if_neg hn, h2]
      cases isInvalid ⟨lax, false, false⟩ ch <;> rfl

/-- C23 fails in strict mode for U+E000–U+FFFF: the character U+FF21 (fullwidth A), which is a scalar value that the
charset lacks, is reported as an invalid sequence, and stop_on_invalid_sequence stops there. -/
theorem private_use_wrong :
    fromU32 ascii ⟨false, true, false⟩ 10 [0x41, 0xFF21] = some ⟨[0xFF21], [0x41], .invalid, [.invalid 1 1]⟩ ∧
    charProblem ascii false 0xFF21 = .unsupported := by
  decide +kernel

/-- unsafe_transcode agrees with transcode's specification on valid source. -/
theorem unsafe_from_u32_outcome : ∀ I ∈ all, ∀ (f : Flags) (room : Nat) (src : List Nat),
    (∀ ch ∈ src, ¬ Defect I ch) → (∀ ch ∈ src, Utf.Scalar f.lax ch) →
    ∃ r, unsafeFromU32 I f room src = some r ∧ Outcome (byteOrQuestion I) (charProblem I f.lax) f room src r := by
  intro I hI f room src hd hs
  unfold unsafeFromU32
  rw [loop_congr src room fun ch hc t =>
    actUnsafe_eq (good_all I hI) f ch (inv_of_not_defect hI (hd ch hc)) (hs ch hc) t]
  exact loop_outcome _ _ f src room

theorem unsafe_to_u32_outcome : ∀ I ∈ all, ∀ (f : Flags) (room : Nat) (src : List Nat),
    (∀ b ∈ src, b < 256 ∧ I.isValid b = true) →
    ∃ r, unsafeToU32 I room src = some r ∧ toU32 I f room src = some r ∧ r.events = [] := by
  intro I hI f room src hb
  have G := good_all I hI
  have e1 : unsafeToU32 I room src = loop (genAct I.decode (fun _ => .none) f) room src := by
    unfold unsafeToU32
    exact loop_congr src room fun ch _ t => rfl
  have e2 : toU32 I f room src = loop (genAct I.decode (fun _ => .none) f) room src := by
    unfold toU32
    refine loop_congr src room fun ch hc t => ?_
    rw [actToU32_eq G f ch (hb ch hc).1 t]
    unfold genAct byteProblem
    simp [(hb ch hc).2]
  obtain ⟨r, e, done, todo, h1, h2, h3, h4, h5, h6, h7⟩ := loop_outcome I.decode (fun _ => .none) f src room
  refine ⟨r, by rw [e1, e], by rw [e2, e], ?_⟩
  rw [h6]
  generalize src.length = n
  clear h1 h2 h3 h4 h5 h6 h7
  induction done generalizing n with
  | nil => cases todo <;> simp [notices, Problem.event]
  | cons a d ih => simp [notices, Problem.event]; exact ih _

example : byteOrQuestion iso_8859_2 0x141 = 0xA3 ∧ charProblem iso_8859_2 false 0x141 = .none ∧
    charProblem iso_8859_2 false 0x20AC = .unsupported ∧ charProblem iso_8859_2 false 0xD800 = .invalid := by
  decide +kernel

/-! ### C24: sizes -/

/-- C24 for decoding and sanitising: transcode_size gives the number of units, the position and the reason that
transcode gives. -/
theorem to_u32_size_exact : ∀ I ∈ all, ∀ (f : Flags) (limit : Nat) (src : List Nat), (∀ b ∈ src, b < 256) →
    toU32Size I f limit src = (toU32 I f limit src).map (fun r => ⟨r.out.length, r.rest, r.why⟩) ∧
    toU32Size I f limit src = (sanitize I f limit src).map (fun r => ⟨r.out.length, r.rest, r.why⟩) := by
  intro I hI f limit src hb
  have G := good_all I hI
  have key : ∀ unit : Nat → Nat, toU32Size I f limit src = (loop (genAct unit (byteProblem I) f) limit src).map sizeOf := by
    intro unit
    unfold toU32Size findInvalid
    by_cases hs : f.stop = true
    · rw [if_pos hs]
      split
      · refine findFirst_eq limit src fun ch hc => ?_
        unfold byteProblem stopReason
        cases I.isValid ch <;> simp [hs]
      · rename_i hc
        refine plainSize_eq limit src fun ch hm => ?_
        unfold byteProblem
        rw [G.checks (by simpa using hc) ch (hb ch hm)]
        rfl
    · rw [if_neg hs]
      refine plainSize_eq limit src fun ch hm => ?_
      unfold byteProblem Problem.stops
      cases I.isValid ch <;> simp [hs]
  constructor
  · unfold toU32
    rw [loop_congr src limit fun ch hc t => actToU32_eq G f ch (hb ch hc) t]
    exact key _
  · unfold sanitize
    rw [loop_congr src limit fun ch _ t => actSanitize_eq I f ch t]
    exact key _

/-- C24 for encoding, except at the boundaries where the size functions are off (see the theorems that follow). -/
theorem from_u32_size_partial : ∀ I ∈ all, ∀ (f : Flags) (limit : Nat) (src : List Nat),
    (f.stop = true → f.lax = false → 0xFFFD ∉ src) →
    (f.stopUnsup = true → f.stop = false → (f.lax = false → 0xD800 ∉ src ∧ 0xFFFF ∉ src) ∧ (f.lax = true → 0x110000 ∉ src)) →
    fromU32Size I f limit src = (fromU32 I f limit src).map (fun r => ⟨r.out.length, r.rest, r.why⟩) := by
  intro I hI f limit src hA hB
  have G := good_all I hI
  let prob : Nat → Problem := fun ch => if I.encode ch < 0x100 then .none else
      if isInvalid f ch then .invalid else .unsupported
  let unit : Nat → Nat := fun ch => if I.encode ch < 0x100 then I.encode ch else 0x3F
  have hl : fromU32 I f limit src = loop (genAct unit prob f) limit src := by
    unfold fromU32
    refine loop_congr src limit fun ch _ t => ?_
    show _ = genAct unit (fun ch => if I.encode ch < 0x100 then .none else
      if isInvalid f ch then .invalid else .unsupported) f ch t
    unfold actFromU32 genAct
    dsimp only
    rcases Nat.lt_or_ge (I.encode ch) 0x100 with g | g
    · rw [if_neg (by omega), if_pos g]
      show _ = Act.store (if I.encode ch < 0x100 then I.encode ch else 0x3F) []
      rw [if_pos g, Nat.mod_eq_of_lt g]
    · have hn : ¬ I.encode ch < 0x100 := by omega
      have hu : unit ch = 0x3F := if_neg hn
      rw [if_pos g, if_neg hn, hu]
      cases isInvalid f ch <;> rfl
  rw [hl]
  show _ = (loop (genAct unit prob f) limit src).map sizeOf
  have hp : ∀ ch, prob ch = if I.encode ch < 0x100 then .none else
      if isInvalid f ch then .invalid else .unsupported := fun _ => rfl
  have hinv : ∀ ch, (ch ≥ 0x110000 ∨ (f.lax = false ∧ 0xD800 ≤ ch ∧ ch ≤ 0xFFFF)) ↔ isInvalid f ch = true := by
    intro ch
    unfold isInvalid
    simp [and_assoc]
  have hno : ∀ ch, (f.lax = false → ch ≠ 0xFFFD) → isInvalid f ch = true → ¬ I.encode ch < 0x100 := by
    intro ch h1 h2
    have := G.big ch
    rcases (hinv ch).2 h2 with g | ⟨g1, g2, _⟩
    · have := this (by omega) (by omega); omega
    · have := this g2 (h1 g1); omega
  unfold fromU32Size
  by_cases h1 : f.stopUnsup = true ∧ f.stop = true
  · rw [if_pos h1]
    refine findFirst_eq limit src fun ch hc => ?_
    have hA' : f.lax = false → ch ≠ 0xFFFD := fun hl e => hA h1.2 hl (e ▸ hc)
    rw [hp]
    unfold whyBoth stopReason
    by_cases hi : isInvalid f ch = true
    · rw [if_pos ((hinv ch).2 hi), if_neg (hno ch hA' hi), if_pos hi]
      simp [h1.2]
    · rw [if_neg (mt (hinv ch).1 hi)]
      by_cases g : I.encode ch < 0x100
      · rw [if_pos g, if_neg (by omega)]
      · rw [if_neg g, if_neg hi, if_pos (by omega)]; simp [h1.1]
  · rw [if_neg h1]
    by_cases h2 : f.stop = true
    · have h3 : ¬ f.stopUnsup = true := fun h => h1 ⟨h, h2⟩
      rw [if_pos h2]
      refine findFirst_eq limit src fun ch hc => ?_
      have hA' : f.lax = false → ch ≠ 0xFFFD := fun hl e => hA h2 hl (e ▸ hc)
      rw [hp]
      unfold whyInvalid stopReason
      by_cases hi : isInvalid f ch = true
      · rw [if_pos ((hinv ch).2 hi), if_neg (hno ch hA' hi), if_pos hi]
        simp [h2]
      · rw [if_neg (mt (hinv ch).1 hi), if_neg hi]
        by_cases g : I.encode ch < 0x100
        · rw [if_pos g]
        · rw [if_neg g]; simp [h3]
    · rw [if_neg h2]
      by_cases h3 : f.stopUnsup = true
      · have h2' : f.stop = false := by simpa using h2
        rw [if_pos h3]
        refine findFirst_eq limit src fun ch hc => ?_
        have hB' := hB h3 h2'
        have hB1 : f.lax = false → ch ≠ 0xD800 ∧ ch ≠ 0xFFFF :=
          fun hl => ⟨fun e => (hB'.1 hl).1 (e ▸ hc), fun e => (hB'.1 hl).2 (e ▸ hc)⟩
        have hB2 : f.lax = true → ch ≠ 0x110000 := fun hl e => hB'.2 hl (e ▸ hc)
        rw [hp]
        have hw : whyUnsup I f ch =
            if I.encode ch < 0x100 then none else if isInvalid f ch then none else some .unsupported := by
          have hi := hinv ch
          unfold whyUnsup
          by_cases g : I.encode ch < 0x100
          · rw [if_pos g]
            rw [if_neg (show ¬ (ch ≤ 0x110000 ∧ I.encode ch ≥ 0x100) by omega), if_neg (show ¬ ((ch ≤ 0xD800 ∨
              (0xFFFF ≤ ch ∧ ch ≤ 0x10FFFF)) ∧ I.encode ch ≥ 0x100) by omega)]
            exact ite_self _
          · rw [if_neg g]
            cases hl : f.lax with
            | true =>
              have := hB2 hl
              rw [hl] at hi
              rw [if_pos rfl]
              by_cases k : isInvalid f ch = true
              · rw [if_pos k]
                rcases hi.2 k with k' | k'
                · exact if_neg (by omega)
                · exact absurd k'.1 (by simp)
              · rw [if_neg k]
                have k' := mt hi.1 k
                exact if_pos (by omega)
            | false =>
              have := hB1 hl
              rw [hl] at hi
              rw [if_neg (by simp)]
              by_cases k : isInvalid f ch = true
              · rw [if_pos k]
                rcases hi.2 k with k' | k'
                · exact if_neg (by omega)
                · exact if_neg (by omega)
              · rw [if_neg k]
                have k' := mt hi.1 k
                have k2 : ¬ (0xD800 ≤ ch ∧ ch ≤ 0xFFFF) := fun x => k' (.inr ⟨rfl, x⟩)
                have k3 : ¬ ch ≥ 0x110000 := fun x => k' (.inl x)
                exact if_pos (by omega)
        rw [hw]
        unfold stopReason
        by_cases g : I.encode ch < 0x100
        · rw [if_pos g, if_pos g]
        · rw [if_neg g, if_neg g]
          cases isInvalid f ch <;> simp [h3, h2']
      · rw [if_neg h3]
        refine plainSize_eq limit src fun ch hm => ?_
        unfold Problem.stops
        cases prob ch <;> simp [h2, h3]

/-- In strict mode with stop_on_invalid_sequence the size function stops at U+FFFD, where transcode writes '?'. -/
theorem size_fffd_wrong :
    fromU32 ascii ⟨false, true, false⟩ 10 [0x41, 0xFFFD, 0x42] = some ⟨[], [0x41, 0x3F, 0x42], .completed, []⟩ ∧
    fromU32Size ascii ⟨false, true, false⟩ 10 [0x41, 0xFFFD, 0x42] = some ⟨1, [0xFFFD, 0x42], .invalid⟩ := by
  decide +kernel

/-- With stop_on_unsupported_codepoint only, the size function stops at the surrogate D800, at U+FFFF (strict) and at
110000 (lax), where transcode goes on. -/
theorem size_unsupported_wrong :
    fromU32 ascii ⟨false, false, true⟩ 10 [0xD800] = some ⟨[], [0x3F], .completed, [.invalid 1 1]⟩ ∧
    fromU32Size ascii ⟨false, false, true⟩ 10 [0xD800] = some ⟨0, [0xD800], .unsupported⟩ ∧
    fromU32 ascii ⟨false, false, true⟩ 10 [0xFFFF] = some ⟨[], [0x3F], .completed, [.invalid 1 1]⟩ ∧
    fromU32Size ascii ⟨false, false, true⟩ 10 [0xFFFF] = some ⟨0, [0xFFFF], .unsupported⟩ ∧
    fromU32 ascii ⟨true, false, true⟩ 10 [0x110000] = some ⟨[], [0x3F], .completed, [.invalid 1 1]⟩ ∧
    fromU32Size ascii ⟨true, false, true⟩ 10 [0x110000] = some ⟨0, [0x110000], .unsupported⟩ := by
  decide +kernel

/-- unsafe_transcode_size and unsafe_transcode agree for every source. -/
theorem unsafe_from_u32_size_exact (I : Impl) (f : Flags) (limit : Nat) (src : List Nat) :
    unsafeFromU32Size I f limit src = (unsafeFromU32 I f limit src).map (fun r => ⟨r.out.length, r.rest, r.why⟩) := by
  let prob : Nat → Problem := fun ch => if I.encode ch < 0x100 then .none else .unsupported
  let unit : Nat → Nat := fun ch => if I.encode ch < 0x100 then I.encode ch else 0x3F
  have hl : unsafeFromU32 I f limit src = loop (genAct unit prob f) limit src := by
    unfold unsafeFromU32
    refine loop_congr src limit fun ch _ t => ?_
    show _ = genAct unit (fun ch => if I.encode ch < 0x100 then .none else .unsupported) f ch t
    unfold actUnsafeFromU32 genAct
    dsimp only
    rcases Nat.lt_or_ge (I.encode ch) 0x100 with g | g
    · rw [if_neg (by omega), if_pos g]
      show _ = Act.store (if I.encode ch < 0x100 then I.encode ch else 0x3F) []
      rw [if_pos g, Nat.mod_eq_of_lt g]
    · have hn : ¬ I.encode ch < 0x100 := by omega
      have hu : unit ch = 0x3F := if_neg hn
      rw [if_pos g, if_neg hn, hu]
  rw [hl]
  show _ = (loop (genAct unit prob f) limit src).map sizeOf
  have hp : ∀ ch, prob ch = if I.encode ch < 0x100 then .none else .unsupported := fun _ => rfl
  unfold unsafeFromU32Size
  by_cases h : f.stopUnsup = true
  · rw [if_neg (by simp [h])]
    refine findFirst_eq limit src fun ch _ => ?_
    rw [hp]
    unfold stopReason
    split_ifs <;> first | rfl | omega
  · rw [if_pos (by simpa using h)]
    refine plainSize_eq limit src fun ch _ => ?_
    rw [hp]
    unfold Problem.stops
    split_ifs <;> simp [h]

/-- encode_char, validate and write_replacement_char. -/
theorem encode_char_byte : ∀ I ∈ all, ∀ ch, ¬ Defect I ch →
    encodeChar I ch = byteOrQuestion I ch ∧ (validate I ch = some 1 ↔ (byteOf I ch).isSome ∨ ch = 0xFFFD) ∧
    (validate I ch = none ↔ ¬ ((byteOf I ch).isSome ∨ ch = 0xFFFD)) := by
  intro I hI ch hd
  unfold encodeChar byteOrQuestion validate
  rcases encode_cases (good_all I hI) (inv_of_not_defect hI hd) with ⟨h1, h2, h3⟩ | ⟨h1, h2, h3⟩ | ⟨h1, h2, h3⟩
  · subst h1; rw [h2]; simp [h3]
  · rw [h2]; simp [h3]
  · rw [h2]; simp [h1]; omega

theorem fillLoop_prints {σ : Type} {D : Dest.Dest Nat σ} {Rep : σ → List Nat → Prop} (L : Dest.Lawful D Rep) (c : Nat)
    (fuel : Nat) : ∀ (s : σ) (t : List Nat) (count : Nat), Rep s t →
      (count + 1 < fuel ∨ (count < fuel ∧ 64 ≤ D.space s)) →
      ∃ s', fillLoop D c fuel s count = some s' ∧ Rep s' (t ++ List.replicate count c) ∧
        Dest.After τ D s s' count := by
  induction fuel with
  | zero => intro s t count _ h; omega
  | succ fuel ih =>
    intro s t count hr hf
    unfold fillLoop
    dsimp only
    split
    · obtain ⟨s', e, r, z, g⟩ := L.poke s t (List.replicate count c) hr (by simpa using by assumption)
      exact ⟨s', e, r, .poke (by simpa using z) g⟩
    · rename_i hc
      obtain ⟨s1, e, r, sz1, g⟩ := L.poke s t (List.replicate (D.space s) c) hr (by simp)
      rw [e]
      dsimp only
      obtain ⟨r2, hsp, g2⟩ := L.recycle s1 _ r (by simp at sz1; omega)
      obtain ⟨s', e', r', g'⟩ := ih (D.recycle s1) _ (count - D.space s) r2 (.inr ⟨by omega, hsp⟩)
      refine ⟨s', e', ?_, .over (fun k => g ▸ g2 (g'.1 k)) (by omega)⟩
      rw [List.append_assoc, List.replicate_append_replicate] at r'
      rwa [show D.space s + (count - D.space s) = count by omega] at r'

/-- encode_fill prints `count` copies. -/
theorem encode_fill_bytes {σ : Type} {D : Dest.Dest Nat σ} {Rep : σ → List Nat → Prop} (L : Dest.Lawful D Rep) :
    ∀ I ∈ all, ∀ count ch, ¬ Defect I ch →
      Dest.Prints τ D Rep (fun s => encodeFill D I s count ch) (List.replicate count (byteOrQuestion I ch)) := by
  intro I hI count ch hd s t hr
  have e := (encode_char_byte I hI ch hd).1
  unfold encodeChar at e
  dsimp only at e
  unfold encodeFill
  dsimp only
  have e2 : (if I.encode ch ≥ 0x100 then 0x3F else I.encode ch) = byteOrQuestion I ch := by
    rw [← e]; split_ifs <;> first | rfl | omega
  rw [e2]
  rw [List.length_replicate]
  exact fillLoop_prints L _ (count + 2) s t count hr (.inl (by omega))

/-- C18 for single-byte charsets: count_codepoints counts bytes, at most `max`, and returns the position after the
last one counted. -/
theorem count_codepoints_bytes (src : List Nat) (max : Nat) :
    (countCodepoints src max).1 = min max src.length ∧
    src.take (countCodepoints src max).1 ++ (countCodepoints src max).2 = src := by
  unfold countCodepoints
  split
  · exact ⟨by dsimp only; omega, List.take_append_drop _ _⟩
  · exact ⟨by dsimp only; omega, by simp⟩

example : countCodepoints [0x41, 0xE9, 0x42] 2 = (2, [0x42]) := rfl

end Strf.Sbc

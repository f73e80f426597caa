import Verif.Sbc.Spec
import Verif.Sbc.InverseLemmas
import Verif.Charset.Lemmas
/-! # The transcoding loops of single-byte charsets -/
namespace Strf.Sbc
open Strf.Utf (Reason SR)
open Strf.Charset (Event Res Scripted Piece outs evs)

/-- The shape of all the loop bodies. -/
def genAct (unit : Nat → Nat) (prob : Nat → Problem) (f : Flags) (ch : Nat) (t : List Nat) : Act :=
  match prob ch with
  | .none => .store (unit ch) []
  | .invalid => if f.stop then .ret .invalid [.invalid (t.length + 1) 1] else .store (unit ch) [.invalid (t.length + 1) 1]
  | .unsupported => if f.stopUnsup then .ret .unsupported [.unsupported ch] else .store (unit ch) [.unsupported ch]

/-- The body depends only on the unit: equal bodies on the units of the source give equal results. -/
theorem loop_congr {a b : Nat → List Nat → Act} : ∀ (src : List Nat) (room : Nat),
    (∀ ch ∈ src, ∀ t, a ch t = b ch t) → loop a room src = loop b room src := by
  intro src
  induction src with
  | nil => intros; rfl
  | cons ch t ih =>
    intro room h
    have e := h ch (by simp) t
    unfold loop
    rw [e]
    cases b ch t with
    | ret => rfl
    | store u ev =>
      dsimp only
      rw [ih (room - 1) fun c hc => h c (by simp [hc])]

theorem genAct_stop {unit : Nat → Nat} {prob : Nat → Problem} {f : Flags} {ch : Nat} {t : List Nat}
    (h : (prob ch).stops f = true) :
    (prob ch = .invalid ∧ f.stop = true ∧ genAct unit prob f ch t = .ret .invalid ((prob ch).event (t.length + 1) ch)) ∨
    (prob ch = .unsupported ∧ f.stopUnsup = true ∧
      genAct unit prob f ch t = .ret .unsupported ((prob ch).event (t.length + 1) ch)) := by
  unfold genAct Problem.event
  unfold Problem.stops at h
  cases hp : prob ch <;> rw [hp] at h <;> dsimp only at h ⊢
  · cases h
  · rw [if_pos h]; exact .inl ⟨rfl, h, rfl⟩
  · rw [if_pos h]; exact .inr ⟨rfl, h, rfl⟩

theorem genAct_go {unit : Nat → Nat} {prob : Nat → Problem} {f : Flags} {ch : Nat} {t : List Nat}
    (h : (prob ch).stops f = false) :
    genAct unit prob f ch t = .store (unit ch) ((prob ch).event (t.length + 1) ch) := by
  unfold genAct Problem.event
  unfold Problem.stops at h
  cases hp : prob ch <;> rw [hp] at h <;> dsimp only at h ⊢
  · rw [if_neg (by simp [h])]
  · rw [if_neg (by simp [h])]

theorem loop_outcome (unit : Nat → Nat) (prob : Nat → Problem) (f : Flags) : ∀ (src : List Nat) (room : Nat),
    ∃ r, loop (genAct unit prob f) room src = some r ∧ Outcome unit prob f room src r := by
  intro src
  induction src with
  | nil => intro room; exact ⟨_, rfl, [], [], rfl, rfl, rfl, Nat.zero_le _, by simp, rfl, rfl⟩
  | cons ch t ih =>
    intro room
    unfold loop
    cases hs : (prob ch).stops f with
    | true =>
      rcases genAct_stop (unit := unit) (t := t) hs with ⟨h1, h2, e⟩ | ⟨h1, h2, e⟩
      · rw [e]
        exact ⟨_, rfl, [], ch :: t, rfl, rfl, rfl, Nat.zero_le _, by simp, by simp [notices], ch, t, rfl, h1, h2⟩
      · rw [e]
        exact ⟨_, rfl, [], ch :: t, rfl, rfl, rfl, Nat.zero_le _, by simp, by simp [notices], ch, t, rfl, h1, h2⟩
    | false =>
      rw [genAct_go hs]
      dsimp only
      split
      · rename_i hr
        exact ⟨_, rfl, [], ch :: t, rfl, rfl, rfl, Nat.zero_le _, by simp, by simp [notices], by simp [hr], ch, t, rfl, hs⟩
      · rename_i hr
        obtain ⟨r, e, done, todo, e1, e2, e3, e4, e5, e6, e7⟩ := ih (room - 1)
        rw [e]
        refine ⟨_, rfl, ch :: done, todo, by rw [e1]; rfl, by dsimp only; rw [e2]; rfl, e3, by simp; omega, ?_, ?_, ?_⟩
        · intro c hc
          rcases List.mem_cons.1 hc with rfl | g
          · exact hs
          · exact e5 c g
        · dsimp only; rw [e6]; simp [notices]
        · dsimp only
          cases hw : r.why <;> rw [hw] at e7 <;> dsimp only at e7 ⊢
          · exact e7
          · exact ⟨by have := e7.1; simp; omega, e7.2⟩
          · exact e7
          · exact e7

/-- The pieces of a source, up to where the flags ask to stop. -/
theorem loop_scripted (unit : Nat → Nat) (prob : Nat → Problem) (f : Flags) : ∀ (src : List Nat),
    (∀ ch ∈ src, (prob ch).stops f = false) →
    Scripted (fun room src => loop (genAct unit prob f) room src) src
      (src.mapIdx fun i ch => ⟨[unit ch], 1, (prob ch).event (src.length - i) ch⟩) .completed [] [] := by
  intro src
  induction src with
  | nil => intro _; exact .done (by simp) (by intro room; rfl)
  | cons ch t ih =>
    intro h
    rw [List.mapIdx_cons]
    have hs := h ch (by simp)
    refine .more (by simp) (by simp) (by simp) (by simp) ?_ ?_ ?_
    · intro room hr
      simp at hr
      dsimp only
      unfold loop
      rw [genAct_go hs]
      simp [hr]
    · intro room hr
      simp at hr
      dsimp only
      rw [loop, genAct_go hs]
      dsimp only
      rw [if_neg (by omega)]
      rfl
    · have := ih fun c hc => h c (by simp [hc])
      simpa [Nat.add_sub_add_right] using this

/-! ## What encode gives, in terms of the meaning of the bytes -/

theorem byteOf_some {I : Impl} {ch b : Nat} (h : byteOf I ch = some b) : b < 256 ∧ I.isValid b = true ∧ I.decode b = ch := by
  have h1 := List.find?_some h
  have h2 := List.mem_range.1 (List.mem_of_find?_eq_some h)
  simp at h1
  exact ⟨h2, h1⟩

theorem byteOf_none {I : Impl} {ch : Nat} (h : byteOf I ch = none) (b : Nat) (hb : b < 256) (hv : I.isValid b = true) :
    I.decode b ≠ ch := by
  have := List.find?_eq_none.1 h b (List.mem_range.2 hb)
  simpa [hv] using this

/-- The character `ch` does not meet a defect of the encoding table. -/
def Inv1 (I : Impl) (ch : Nat) : Prop := I.encode ch < 0x100 → ch ≠ 0xFFFD → I.decode (I.encode ch) = ch

theorem encode_cases {I : Impl} (G : Good I) {ch : Nat} (hi : Inv1 I ch) :
    (ch = 0xFFFD ∧ byteOf I ch = none ∧ I.encode ch = 0x3F) ∨
    (ch ≠ 0xFFFD ∧ byteOf I ch = some (I.encode ch) ∧ I.encode ch < 0x100) ∨
    (ch ≠ 0xFFFD ∧ byteOf I ch = none ∧ 0x100 ≤ I.encode ch) := by
  by_cases hf : ch = 0xFFFD
  · refine .inl ⟨hf, ?_, by rw [hf]; exact G.fffd⟩
    cases h : byteOf I ch with
    | none => rfl
    | some b =>
      obtain ⟨h1, h2, h3⟩ := byteOf_some h
      have := (G.valid b h1).2 (by rw [h3, hf])
      rw [h2] at this; cases this
  · cases h : byteOf I ch with
    | some b =>
      obtain ⟨h1, h2, h3⟩ := byteOf_some h
      have := G.back b h1 h2
      rw [h3] at this
      rw [this]
      exact .inr (.inl ⟨hf, rfl, h1⟩)
    | none =>
      refine .inr (.inr ⟨hf, rfl, ?_⟩)
      rcases Nat.lt_or_ge (I.encode ch) 0x100 with g | g
      · have e := hi g hf
        refine absurd e (byteOf_none h _ g ?_)
        cases hv : I.isValid (I.encode ch) with
        | true => rfl
        | false => rw [(G.valid _ g).1 hv] at e; exact absurd e.symm hf
      · exact g

theorem actToU32_eq {I : Impl} (G : Good I) (f : Flags) (ch : Nat) (hb : ch < 256) (t : List Nat) :
    actToU32 I f ch t = genAct I.decode (byteProblem I) f ch t := by
  unfold actToU32 genAct byteProblem
  cases hv : I.isValid ch with
  | true =>
    rw [if_neg fun e => by have := (G.valid ch hb).2 e; rw [hv] at this; cases this]
    rfl
  | false =>
    have e := (G.valid ch hb).1 hv
    rw [if_pos e, e]
    rfl

theorem actSanitize_eq (I : Impl) (f : Flags) (ch : Nat) (t : List Nat) :
    actSanitize I f ch t = genAct (fun b => if I.isValid b then b else 0x3F) (byteProblem I) f ch t := by
  unfold actSanitize genAct byteProblem
  cases hv : I.isValid ch <;> simp [hv]

/-- Outside the range that the code takes for surrogates. -/
def Fair (f : Flags) (ch : Nat) : Prop := f.lax = true ∨ ¬ (0xE000 ≤ ch ∧ ch ≤ 0xFFFF ∧ ch ≠ 0xFFFD)

theorem isInvalid_iff {f : Flags} {ch : Nat} (hf : Fair f ch) (h : ch ≠ 0xFFFD) :
    isInvalid f ch = true ↔ ¬ Utf.Scalar f.lax ch := by
  unfold isInvalid Utf.Scalar Utf.IsSurr
  unfold Fair at hf
  cases hl : f.lax <;> simp [hl] at hf ⊢ <;> omega

theorem actFromU32_eq {I : Impl} (G : Good I) (f : Flags) (ch : Nat) (hi : Inv1 I ch) (hf : Fair f ch) (t : List Nat) :
    actFromU32 I f ch t = genAct (byteOrQuestion I) (charProblem I f.lax) f ch t := by
  unfold actFromU32 genAct charProblem byteOrQuestion
  rcases encode_cases G hi with ⟨h1, h2, h3⟩ | ⟨h1, h2, h3⟩ | ⟨h1, h2, h3⟩
  · rw [if_neg (by omega), if_pos (.inr h1), h2, h3]; rfl
  · rw [if_neg (by omega), h2, if_pos (.inl rfl)]; simp [Nat.mod_eq_of_lt h3]
  · have hn : ¬ ((none : Option Nat).isSome = true ∨ ch = 0xFFFD) := by simp [h1]
    rw [if_pos h3, h2, if_neg hn]
    by_cases hs : Utf.Scalar f.lax ch
    · have : isInvalid f ch = false := by
        rw [← Bool.not_eq_true, isInvalid_iff hf h1]; exact not_not_intro hs
      rw [this, if_pos hs]
      rfl
    · have : isInvalid f ch = true := (isInvalid_iff hf h1).2 hs
      rw [this, if_neg hs]
      rfl

theorem actUnsafe_eq {I : Impl} (G : Good I) (f : Flags) (ch : Nat) (hi : Inv1 I ch) (hs : Utf.Scalar f.lax ch) (t : List Nat) :
    actUnsafeFromU32 I f ch t = genAct (byteOrQuestion I) (charProblem I f.lax) f ch t := by
  unfold actUnsafeFromU32 genAct charProblem byteOrQuestion
  rcases encode_cases G hi with ⟨h1, h2, h3⟩ | ⟨h1, h2, h3⟩ | ⟨h1, h2, h3⟩
  · rw [if_neg (by omega), if_pos (.inr h1), h2, h3]; rfl
  · rw [if_neg (by omega), h2, if_pos (.inl rfl)]; simp [Nat.mod_eq_of_lt h3]
  · have hn : ¬ ((none : Option Nat).isSome = true ∨ ch = 0xFFFD) := by simp [h1]
    rw [if_pos h3, h2, if_neg hn, if_pos hs]; rfl

/-! ## Sizes -/

/-- What a transcode_size function should return, given what transcode returns. -/
def sizeOf (r : Res) : SR := ⟨r.out.length, r.rest, r.why⟩

/-- Why the flags ask to stop at a unit. -/
def stopReason (f : Flags) (p : Problem) : Option Reason :=
  match p with
  | .none => none
  | .invalid => if f.stop then some .invalid else none
  | .unsupported => if f.stopUnsup then some .unsupported else none

theorem genAct_reason {unit : Nat → Nat} {prob : Nat → Problem} {f : Flags} {ch : Nat} {t : List Nat} :
    (∃ w ev, stopReason f (prob ch) = some w ∧ genAct unit prob f ch t = .ret w ev) ∨
    (∃ ev, stopReason f (prob ch) = none ∧ genAct unit prob f ch t = .store (unit ch) ev) := by
  unfold genAct stopReason
  cases prob ch <;> dsimp only
  · exact .inr ⟨_, rfl, rfl⟩
  · split
    · exact .inl ⟨_, _, rfl, rfl⟩
    · exact .inr ⟨_, rfl, rfl⟩
  · split
    · exact .inl ⟨_, _, rfl, rfl⟩
    · exact .inr ⟨_, rfl, rfl⟩

theorem scanAll_eq {unit : Nat → Nat} {prob : Nat → Problem} {f : Flags} {why : Nat → Option Reason} :
    ∀ (src : List Nat) (pos room : Nat), src.length ≤ room → (∀ ch ∈ src, why ch = stopReason f (prob ch)) →
    ∃ r, loop (genAct unit prob f) room src = some r ∧ scanAll why pos src = ⟨pos + r.out.length, r.rest, r.why⟩ := by
  intro src
  induction src with
  | nil => intros; exact ⟨_, rfl, rfl⟩
  | cons ch t ih =>
    intro pos room hr hw
    unfold loop scanAll
    rw [hw ch (by simp)]
    rcases genAct_reason (unit := unit) (prob := prob) (f := f) (ch := ch) (t := t) with ⟨w, ev, e1, e2⟩ | ⟨ev, e1, e2⟩
    · rw [e1, e2]; exact ⟨_, rfl, rfl⟩
    · rw [e1, e2]
      dsimp only
      simp at hr
      obtain ⟨r, e, h⟩ := ih (pos + 1) (room - 1) (by omega) fun c hc => hw c (by simp [hc])
      rw [if_neg (by omega), e]
      exact ⟨_, rfl, by rw [h]; simp; omega⟩

theorem scanLimit_eq {unit : Nat → Nat} {prob : Nat → Problem} {f : Flags} {why : Nat → Option Reason} (limit : Nat) :
    ∀ (src : List Nat) (pos : Nat), pos ≤ limit → limit - pos < src.length →
    (∀ ch ∈ src, why ch = stopReason f (prob ch)) →
    ∃ r, loop (genAct unit prob f) (limit - pos) src = some r ∧
      scanLimit why limit pos src = some ⟨pos + r.out.length, r.rest, r.why⟩ := by
  intro src
  induction src with
  | nil => intro pos _ h; simp at h
  | cons ch t ih =>
    intro pos hp hr hw
    unfold loop scanLimit
    rw [hw ch (by simp)]
    rcases genAct_reason (unit := unit) (prob := prob) (f := f) (ch := ch) (t := t) with ⟨w, ev, e1, e2⟩ | ⟨ev, e1, e2⟩
    · rw [e1, e2]; exact ⟨_, rfl, rfl⟩
    · rw [e1, e2]
      dsimp only
      by_cases g : pos = limit
      · rw [if_pos (by omega), if_pos g]; exact ⟨_, rfl, rfl⟩
      · rw [if_neg (by omega), if_neg g]
        simp at hr
        obtain ⟨r, e, h⟩ := ih (pos + 1) (by omega) (by omega) fun c hc => hw c (by simp [hc])
        rw [show limit - pos - 1 = limit - (pos + 1) by omega, e]
        exact ⟨_, rfl, by rw [h]; simp; omega⟩

theorem findFirst_eq {unit : Nat → Nat} {prob : Nat → Problem} {f : Flags} {why : Nat → Option Reason} (limit : Nat)
    (src : List Nat) (h : ∀ ch ∈ src, why ch = stopReason f (prob ch)) :
    findFirst why limit src = (loop (genAct unit prob f) limit src).map sizeOf := by
  unfold findFirst
  split
  · obtain ⟨r, e, h2⟩ := scanAll_eq (unit := unit) src 0 limit (by omega) h
    rw [e, h2]; simp [sizeOf]
  · obtain ⟨r, e, h2⟩ := scanLimit_eq (unit := unit) limit src 0 (by omega) (by omega) h
    rw [Nat.sub_zero] at e
    rw [e, h2]; simp [sizeOf]

theorem stops_reason {f : Flags} {p : Problem} : p.stops f = false ↔ stopReason f p = none := by
  unfold Problem.stops stopReason
  cases p <;> simp

theorem plainSize_eq {unit : Nat → Nat} {prob : Nat → Problem} {f : Flags} (limit : Nat)
    (src : List Nat) (h : ∀ ch ∈ src, (prob ch).stops f = false) :
    some (plainSize limit src) = (loop (genAct unit prob f) limit src).map sizeOf := by
  obtain ⟨r, e, done, todo, e1, e2, e3, e4, e5, e6, e7⟩ := loop_outcome unit prob f src limit
  rw [e]
  unfold plainSize sizeOf
  rw [Option.map_some]
  cases hw : r.why <;> rw [hw] at e7 <;> dsimp only at e7
  · subst e7
    rw [List.append_nil] at e1
    subst e1
    rw [if_pos e4, e2, e3]; simp
  · obtain ⟨h1, ch, t, h2, _⟩ := e7
    subst h2
    rw [if_neg (by rw [e1]; simp; omega), e2, e3, e1, ← h1]; simp
  · obtain ⟨ch, t, h1, h2, h3⟩ := e7
    have := h ch (by rw [e1, h1]; simp)
    rw [h2] at this; unfold Problem.stops at this; dsimp only at this; rw [h3] at this; cases this
  · obtain ⟨ch, t, h1, h2, h3⟩ := e7
    have := h ch (by rw [e1, h1]; simp)
    rw [h2] at this; unfold Problem.stops at this; dsimp only at this; rw [h3] at this; cases this

end Strf.Sbc

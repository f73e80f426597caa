import Verif.Sbc.Props
import Mathlib.Tactic.ByContra
/-!
# Where exactly the single-byte charsets are right

The theorems `_partial` of C22–C24 say that the functions are right except for certain characters; here: for each of those they are wrong.
-/
namespace Strf.Sbc
open Strf.Utf (Reason SR)
open Strf.Charset (Event Res)

/-- the characters of `Defect` have no byte, but are encoded as one -/
theorem defect_wrong {I : Impl} {ch : Nat} (h : Defect I ch) : byteOf I ch = none ∧ I.encode ch < 0x100 ∧ I.decode (I.encode ch) ≠ ch ∧ ch ≠ 0xFFFD ∧ Utf.Scalar true ch ∧ Utf.Scalar false ch := by
  rcases h with ⟨rfl, h⟩ | ⟨rfl, rfl⟩
  · have : ∀ ch ∈ [0xD0, 0xDD, 0xDE, 0xF0, 0xFD, 0xFE], byteOf windows_1254 ch = none ∧ windows_1254.encode ch < 0x100 ∧ windows_1254.decode (windows_1254.encode ch) ≠ ch ∧
        ch ≠ 0xFFFD ∧ Utf.Scalar true ch ∧ Utf.Scalar false ch := by decide +kernel
    exact this ch h
  · rw [encode_windows_1258]; decide +kernel

/-- C22: a character that is encoded as a byte is what that byte decodes to, if and only if it is not one of the seven characters of `Defect` (or U+FFFD, which is encoded
as '?'). -/
theorem decode_encode_char_iff : ∀ I ∈ all, ∀ ch, I.encode ch < 0x100 → (I.decode (I.encode ch) = ch ↔ ¬ Defect I ch ∧ ch ≠ 0xFFFD) := by
  intro I hI ch h1
  constructor
  · intro e
    refine ⟨fun hd => (defect_wrong hd).2.2.1 e, ?_⟩
    rintro rfl
    rw [(good_all I hI).fffd] at e
    have := ((good_all I hI).ascii 0x3F (by decide)).1
    omega
  · exact fun ⟨hd, hn⟩ => (decode_encode_char_partial I hI ch hd h1 hn).2

/-- C23: encoding a character is right, whatever the room and the flags, if and only if it is not one of the seven, and is not in U+E000–U+FFFF in strict mode (U+FFFD
excepted). -/
theorem from_u32_char_iff : ∀ I ∈ all, ∀ (f : Flags) (room : Nat) (ch : Nat),
    (∃ r, fromU32 I f room [ch] = some r ∧ Outcome (byteOrQuestion I) (charProblem I f.lax) f room [ch] r) ↔
      ¬ Defect I ch ∧ (f.lax = true ∨ ¬ (0xE000 ≤ ch ∧ ch ≤ 0xFFFF ∧ ch ≠ 0xFFFD)) := by
  intro I hI f room ch
  have G := good_all I hI
  constructor
  · rintro ⟨r, e, done, todo, hs, _, _, _, _, hev, _⟩
    have hev : r.events = (charProblem I f.lax ch).event 1 ch := by
      rw [hev]
      cases done with
      | nil => rw [List.nil_append] at hs; rw [← hs]; simp [notices]
      | cons c d =>
        simp only [List.cons_append, List.cons.injEq] at hs
        obtain ⟨rfl, hs⟩ := hs
        obtain ⟨rfl, rfl⟩ := List.append_eq_nil_iff.mp hs.symm
        simp [notices]
    have he : r.events = match actFromU32 I f ch [] with | .ret _ ev => ev | .store _ ev => ev := by
      unfold fromU32 at e
      rw [loop] at e
      cases hact : actFromU32 I f ch [] with
      | ret w ev => rw [hact] at e; cases e; rfl
      | store u ev =>
        rw [hact] at e
        dsimp only at e ⊢
        split at e
        · cases e; rfl
        · simp only [loop, Option.map_some, Option.some.injEq] at e
          rw [← e]; simp
    rw [hev] at he
    refine ⟨fun hd => ?_, ?_⟩
    · obtain ⟨h1, h2, _, h3, h4, h5⟩ := defect_wrong hd
      have hsc : Utf.Scalar f.lax ch := by cases f.lax <;> assumption
      have hc : charProblem I f.lax ch = .unsupported := by simp [charProblem, h1, h3, hsc]
      have ha : actFromU32 I f ch [] = .store (I.encode ch % 0x100) [] := by unfold actFromU32; rw [if_neg (by omega)]
      rw [hc, ha] at he
      cases he
    · by_contra hcon
      have hl : f.lax = false := by
        cases h : f.lax
        · rfl
        · exact absurd (.inl h) hcon
      have hp : 0xE000 ≤ ch ∧ ch ≤ 0xFFFF ∧ ch ≠ 0xFFFD := by
        by_contra hp; exact hcon (.inr hp)
      have hb := G.big ch (by omega) hp.2.2
      have hn : byteOf I ch = none := by
        cases h : byteOf I ch with
        | none => rfl
        | some b =>
          obtain ⟨h1, h2, h3⟩ := byteOf_some h
          rcases G.range b h1 with h | h <;> omega
      have hsc : Utf.Scalar f.lax ch := ⟨by omega, Or.inr (by unfold Utf.IsSurr; omega)⟩
      have hc : charProblem I f.lax ch = .unsupported := by simp [charProblem, hn, hp.2.2, hsc]
      have hi : isInvalid f ch = true := by
        unfold isInvalid
        rw [hl]
        have h1 : decide (0xD800 ≤ ch) = true := decide_eq_true (by omega)
        have h2 : decide (ch ≤ 0xFFFF) = true := decide_eq_true hp.2.1
        rw [h1, h2]; simp
      rw [hc] at he
      unfold actFromU32 at he
      rw [if_pos hb, hi] at he
      simp only [Bool.not_true, Bool.false_eq_true, if_false] at he
      split at he
      · rename_i h; split at h <;> cases h; cases he
      · rename_i h; split at h <;> cases h; cases he
  · rintro ⟨h1, h2⟩
    exact from_u32_outcome_partial I hI f room [ch] (by simpa using h1) (by simpa using h2)

/-- what the size function says of a source of one character -/
private theorem findFirst_one (why : Nat → Option Reason) (limit ch : Nat) (w : Reason) (h : why ch = some w) :
    findFirst why limit [ch] = some ⟨0, [ch], w⟩ := by
  unfold findFirst
  split
  · simp [scanAll, h]
  · simp [scanLimit, h]

/-- C24: the sizes given for encoding a character are right, whatever the limit, if and only if it is none of the boundaries: U+FFFD (strict, stopping at invalid sequences);
D800 and U+FFFF (strict, stopping only at unsupported code points); 110000 (lax, the same). -/
theorem from_u32_size_char_iff : ∀ I ∈ all, ∀ (f : Flags) (limit ch : Nat),
    (fromU32Size I f limit [ch] = (fromU32 I f limit [ch]).map (fun r => ⟨r.out.length, r.rest, r.why⟩)) ↔
      ¬ (f.stop = true ∧ f.lax = false ∧ ch = 0xFFFD) ∧
      ¬ (f.stopUnsup = true ∧ f.stop = false ∧ f.lax = false ∧ (ch = 0xD800 ∨ ch = 0xFFFF)) ∧
      ¬ (f.stopUnsup = true ∧ f.stop = false ∧ f.lax = true ∧ ch = 0x110000) := by
  intro I hI f limit ch
  have G := good_all I hI
  constructor
  · intro e
    have store : ∀ u ev, actFromU32 I f ch [] = .store u ev → ∀ w, w ≠ Reason.insufficient → w ≠ Reason.completed →
        fromU32Size I f limit [ch] ≠ some ⟨0, [ch], w⟩ := by
      intro u ev ha w h1 h2 h3
      rw [h3] at e
      unfold fromU32 at e
      rw [loop, ha] at e
      dsimp only at e
      split at e
      · simp only [Option.map_some, Option.some.injEq] at e
        have := congrArg SR.why e; exact h1 this
      · simp only [loop, Option.map_some, Option.some.injEq] at e
        have := congrArg SR.why e; exact h2 this
    refine ⟨?_, ?_, ?_⟩
    · rintro ⟨hs, hl, rfl⟩
      have ha : actFromU32 I f 0xFFFD [] = .store (I.encode 0xFFFD % 0x100) [] := by
        unfold actFromU32; rw [if_neg (by rw [G.fffd]; decide)]
      refine store _ _ ha .invalid (by decide) (by decide) ?_
      unfold fromU32Size
      by_cases hu : f.stopUnsup = true
      · rw [if_pos ⟨hu, hs⟩]
        exact findFirst_one _ _ _ _ (by simp [whyBoth, hl])
      · rw [if_neg (fun h => hu h.1), if_pos hs]
        exact findFirst_one _ _ _ _ (by simp [whyInvalid, hl])
    · rintro ⟨hu, hs, hl, hc⟩
      have hb := G.big ch (by omega) (by omega)
      have hi : isInvalid f ch = true := by
        unfold isInvalid; rcases hc with rfl | rfl <;> simp [hl]
      have ha : actFromU32 I f ch [] = .store 0x3F [.invalid 1 1] := by
        unfold actFromU32; rw [if_pos hb, hi]; simp [hs]
      refine store _ _ ha .unsupported (by decide) (by decide) ?_
      unfold fromU32Size
      rw [if_neg (by simp [hs]), if_neg (by simp [hs]), if_pos hu]
      refine findFirst_one _ _ _ _ ?_
      unfold whyUnsup
      rw [if_neg (by simp [hl]), if_pos ⟨by omega, hb⟩]
    · rintro ⟨hu, hs, hl, rfl⟩
      have hb := G.big 0x110000 (by omega) (by omega)
      have hi : isInvalid f 0x110000 = true := by unfold isInvalid; simp
      have ha : actFromU32 I f 0x110000 [] = .store 0x3F [.invalid 1 1] := by
        unfold actFromU32; rw [if_pos hb, hi]; simp [hs]
      refine store _ _ ha .unsupported (by decide) (by decide) ?_
      unfold fromU32Size
      rw [if_neg (by simp [hs]), if_neg (by simp [hs]), if_pos hu]
      refine findFirst_one _ _ _ _ ?_
      unfold whyUnsup
      rw [if_pos hl, if_pos ⟨by omega, hb⟩]
  · rintro ⟨h1, h2, h3⟩
    refine from_u32_size_partial I hI f limit [ch] ?_ ?_
    · intro a b c; exact h1 ⟨a, b, (List.mem_singleton.mp c).symm⟩
    · intro a b
      refine ⟨fun c => ⟨fun d => h2 ⟨a, b, c, .inl (List.mem_singleton.mp d).symm⟩, fun d => h2 ⟨a, b, c, .inr (List.mem_singleton.mp d).symm⟩⟩,
        fun c d => h3 ⟨a, b, c, (List.mem_singleton.mp d).symm⟩⟩

example : Defect windows_1254 0xD0 ∧ windows_1254.encode 0x11E = 0xD0 ∧ windows_1254.encode 0xD0 = 0xD0 ∧ windows_1254.decode 0xD0 = 0x11E :=
  ⟨.inl ⟨rfl, by decide⟩, by decide +kernel, by decide +kernel, by decide +kernel⟩

end Strf.Sbc

import Verif.Transcode.Lemmas
import Verif.Format.StringProps
/-! # The transcoders of strf work mark by mark -/
namespace Strf.Transcode
open Strf.Format (CsName)
open Strf.Utf (Reason Enc Scalar Parses items)
open Strf.Sbc (Flags Problem)
open Strf.Charset (Func SizeFunc Res)

theorem sbcOf_mem (i : Fin 25) : sbcOf i ∈ Sbc.all := List.get_mem _ _

/-- what a call is promised -/
def Legible (classify : Bool) (f : Flags) (s d : CsName) (src : List Nat) (ms : List Mark) : Prop :=
  Units s src ∧ Marks f.lax s src ms ∧ Spared classify f s d ms

/-- what a call of the unsafe functions is promised -/
def Sound (f : Flags) (s d : CsName) (src : List Nat) (ms : List Mark) : Prop :=
  Legible false f s d src ms ∧ ∀ m ∈ ms, m.bad = false

theorem Spared.sub {k : Bool} {f : Flags} {s d : CsName} {ms ms' : List Mark} (h : Spared k f s d ms) (hs : ∀ m ∈ ms', m ∈ ms) :
    Spared k f s d ms' := by
  cases d with
  | utf e => trivial
  | sbc j => exact Or.imp id (fun h m hm => h m (hs m hm)) h

theorem Spared.relax {k : Bool} {f : Flags} {s d : CsName} {ms : List Mark} (h : Spared k f s d ms) : Spared false f s d ms := by
  cases d with
  | utf e => trivial
  | sbc j => exact Or.imp id (fun h m hm => ⟨(h m hm).1, by simp⟩) h

/-! ## Reading -/

theorem parses_length {e : Enc} {lax : Bool} {src : List Nat} {is : List Utf.Item} (h : Parses e lax src is) :
    is.length ≤ src.length := by
  induction h with
  | nil => simp
  | ch hs hp ih =>
    have := hs.2.1.length_le
    have := Utf.encode_pos e ‹_›
    rw [List.length_drop] at ih
    simp only [List.length_cons]; omega
  | bad _ _ hm hp ih =>
    have := hm.1
    have := hm.2.1
    rw [List.length_drop] at ih
    simp only [List.length_cons]; omega

theorem extent_map (e : Enc) (its : List Utf.Item) :
    extent (its.map fun i => ⟨i.char, i.size e, i.isBad⟩) = Utf.extent e its := by
  induction its with
  | nil => rfl
  | cons i t ih => simp only [extent, List.map_cons, List.sum_cons, Utf.extent] at ih ⊢; rw [ih]

theorem Marks.drop {lax : Bool} {s : CsName} {src : List Nat} {a b : List Mark} (h : Marks lax s src (a ++ b)) :
    Marks lax s (src.drop (extent a)) b := by
  cases s with
  | utf e =>
    obtain ⟨its, hp, he⟩ := h
    obtain ⟨x, y, rfl, h1, h2⟩ := List.map_eq_append_iff.1 he.symm
    refine ⟨y, ?_, h2.symm⟩
    have := WidthCalc.parses_drop hp x.length
    rw [List.take_left, List.drop_left] at this
    rw [← h1, extent_map]
    exact this
  | sbc i =>
    have h : a ++ b = src.map _ := h
    obtain ⟨x, y, rfl, h1, h2⟩ := List.map_eq_append_iff.1 h.symm
    have hx : extent a = x.length := by
      rw [← h1]
      clear h1 h2
      clear * -
      induction x with
      | nil => rfl
      | cons b t ih =>
        simp only [extent, List.map_cons, List.sum_cons, List.length_cons] at ih ⊢
        rw [ih]
        split <;> dsimp only <;> omega
    rw [hx, List.drop_left]
    exact h2.symm

theorem Marks.length {lax : Bool} {s : CsName} {src : List Nat} {ms : List Mark} (h : Marks lax s src ms) :
    ms.length ≤ src.length := by
  cases s with
  | utf e => obtain ⟨its, hp, rfl⟩ := h; rw [List.length_map]; exact parses_length hp
  | sbc i => rw [show ms = _ from h, List.length_map]

theorem Units.drop {s : CsName} {src : List Nat} (h : Units s src) (n : Nat) : Units s (src.drop n) := by
  cases s with
  | utf e => exact fun u hu => h u (List.mem_of_mem_drop hu)
  | sbc i => exact fun u hu => h u (List.mem_of_mem_drop hu)

theorem legible_reads (k : Bool) (f : Flags) (s d : CsName) : Reads (Legible k f s d) :=
  ⟨fun _ _ _ h => ⟨h.1.drop _, h.2.1.drop, h.2.2.sub fun _ hm => List.mem_append_right _ hm⟩, fun _ _ h => h.2.1.length⟩

theorem sound_reads (f : Flags) (s d : CsName) : Reads (Sound f s d) :=
  ⟨fun _ _ _ h => ⟨(legible_reads false f s d).drop _ _ _ h.1, fun m hm => h.2 m (List.mem_append_right _ hm)⟩,
    fun _ _ h => h.1.2.1.length⟩

/-! ## Calls -/

variable {func func' : Func} {R R' : List Nat → List Mark → Prop} {stop : Mark → Option Reason} {out : Mark → List Nat}

theorem Works.mono (W : Works func R stop out) (h : ∀ src ms, R' src ms → R src ms) : Works func R' stop out :=
  fun room src ms hR => W room src ms (h src ms hR)

theorem Works.congr (W : Works func R stop out) (h : ∀ room src ms, R src ms → func' room src = func room src) :
    Works func' R stop out := by
  intro room src ms hR
  rw [h room src ms hR]
  exact W room src ms hR

theorem flatMap_map {α : Type} (g : α → Mark) (l : List α) : (l.map g).flatMap out = l.flatMap fun i => out (g i) := by
  rw [List.flatMap_map]

theorem utf_works (k : Bool) (f : Flags) (s d : Enc) :
    Works (Charset.utfFunc s d (utfFlags f)) (Legible k f (.utf s) (.utf d)) (stopAt f (.utf d))
      (fun m => units (.utf d) m.char) := by
  rintro room src ms ⟨hu, ⟨its, hp, rfl⟩, -⟩
  obtain ⟨r, e, done, todo, e0, e1, e2, e3, e4, -, e6⟩ := Utf.transcode_outcome s d (utfFlags f) room src hu
  have hi := Utf.parses_unique hp (Utf.parses_items src hu)
  have hi : its = done ++ todo := hi.trans e0
  subst hi
  have hst : ∀ i : Utf.Item, stopAt f (.utf d) ⟨i.char, i.size s, i.isBad⟩ = if i.isBad && f.stop then some .invalid else none := by
    intro i
    unfold stopAt supported
    cases i.isBad <;> simp
  refine ⟨_, _, r.why, (Charset.ofTR r).events, List.map_append, ?_, ?_, ?_, ?_⟩
  · intro m hm
    obtain ⟨i, hi, rfl⟩ := List.mem_map.1 hm
    rw [hst]
    cases hs : f.stop with
    | false => simp
    | true => rw [e4 hs i hi]; simp
  · rw [flatMap_map]; rw [e1] at e3; exact e3
  · unfold Charset.utfFunc
    rw [e]
    rw [flatMap_map, extent_map, ← e2, show (done.flatMap fun i => units (.utf d) i.char) = r.out from e1.symm]
    rfl
  · rw [flatMap_map]
    generalize r.why = why at e6 ⊢
    cases why with
    | completed => dsimp only at e6; subst e6; rfl
    | insufficient =>
      obtain ⟨i, t, rfl, h1, h2⟩ := e6
      refine .inr ⟨?_, rfl, h2⟩
      rw [hst, if_neg (by rw [Bool.and_eq_true]; exact fun h => h1 ⟨h.2, h.1⟩)]
    | invalid =>
      obtain ⟨h1, n, t, rfl⟩ := e6
      refine .inl ⟨?_, by simp, by simp⟩
      rw [hst, show (utfFlags f).stop = f.stop from rfl] at *
      simp [Utf.Item.isBad, h1]
    | unsupported => exact e6.elim

/-- the reason to stop at a unit with a problem -/
def reason (f : Flags) : Problem → Option Reason
  | .none => none
  | .invalid => if f.stop then some .invalid else none
  | .unsupported => if f.stopUnsup then some .unsupported else none

theorem extent_ones {l : List Nat} {mark : Nat → Mark} (h : ∀ b, (mark b).size = 1) : extent (l.map mark) = l.length := by
  induction l with
  | nil => rfl
  | cons b t ih =>
    simp only [extent, List.map_cons, List.sum_cons, List.length_cons] at ih ⊢
    rw [ih, h]; omega

theorem works_of_outcome {f : Flags} {unit : Nat → Nat} {prob : Nat → Problem} {mark : Nat → Mark} (hsize : ∀ b, (mark b).size = 1)
    (hR : ∀ src ms, R src ms → ms = src.map mark ∧ ∀ b ∈ src, out (mark b) = [unit b] ∧ stop (mark b) = reason f (prob b))
    (h : ∀ room src ms, R src ms → ∃ r, func room src = some r ∧ Sbc.Outcome unit prob f room src r) :
    Works func R stop out := by
  intro room src ms hr
  obtain ⟨rfl, hb⟩ := hR src ms hr
  obtain ⟨r, e, done, todo, rfl, e1, e2, e3, e4, -, e6⟩ := h room src _ hr
  have hn : ∀ b ∈ done ++ todo, (prob b).stops f = false → stop (mark b) = none := by
    intro b hm hs
    rw [(hb b hm).2]
    unfold Sbc.Problem.stops at hs
    unfold reason
    split at hs <;> simp_all
  have ho : (done.map mark).flatMap out = done.map unit := by
    have : ∀ b ∈ done, out (mark b) = [unit b] := fun b hm => (hb b (by simp [hm])).1
    clear hb e e1 e2 e3 e4 e6 hn hr
    induction done with
    | nil => rfl
    | cons b t ih =>
      simp only [List.map_cons, List.flatMap_cons]
      rw [ih (fun c hc => this c (by simp [hc])), this b (by simp)]
      rfl
  refine ⟨done.map mark, todo.map mark, r.why, r.events, List.map_append, ?_, ?_, ?_, ?_⟩
  · intro m hm
    obtain ⟨b, hb', rfl⟩ := List.mem_map.1 hm
    exact hn b (by simp [hb']) (e4 b hb')
  · rw [ho, List.length_map]; exact e3
  · rw [e, ho, extent_ones hsize, List.drop_left, ← e1, ← e2]
  · rw [ho, List.length_map]
    generalize r.why = why at e6 ⊢
    cases why with
    | completed => dsimp only at e6; subst e6; rfl
    | insufficient =>
      obtain ⟨h0, c, t, rfl, h1⟩ := e6
      exact .inr ⟨hn c (by simp) h1, rfl, by dsimp only; rw [(hb c (by simp)).1, h0]; simp⟩
    | invalid =>
      obtain ⟨c, t, rfl, h1, h2⟩ := e6
      exact .inl ⟨by rw [(hb c (by simp)).2, h1]; simp [reason, h2], by simp, by simp⟩
    | unsupported =>
      obtain ⟨c, t, rfl, h1, h2⟩ := e6
      exact .inl ⟨by rw [(hb c (by simp)).2, h1]; simp [reason, h2], by simp, by simp⟩

/-! ## Single-byte charsets -/

def byteMark (I : Sbc.Impl) (b : Nat) : Mark := if I.isValid b then ⟨I.decode b, 1, false⟩ else ⟨0xFFFD, 1, true⟩

theorem byteMark_size (I : Sbc.Impl) (b : Nat) : (byteMark I b).size = 1 := by unfold byteMark; split <;> rfl

theorem byteMark_char {I : Sbc.Impl} (hI : I ∈ Sbc.all) {b : Nat} (hb : b < 256) : (byteMark I b).char = I.decode b := by
  unfold byteMark
  cases hv : I.isValid b with
  | true => rfl
  | false => exact (((Sbc.good_all I hI).valid b hb).1 hv).symm

theorem byteOf_decode {I : Sbc.Impl} (hI : I ∈ Sbc.all) {b : Nat} (hb : b < 256) (hv : I.isValid b = true) :
    Sbc.byteOf I (I.decode b) = some b := by
  cases h : Sbc.byteOf I (I.decode b) with
  | none => exact absurd rfl (Sbc.byteOf_none h b hb hv)
  | some c =>
    obtain ⟨h1, h2, h3⟩ := Sbc.byteOf_some h
    have G := Sbc.good_all I hI
    rw [← G.back b hb hv, ← h3, G.back c h1 h2]

theorem byteOf_big {I : Sbc.Impl} (hI : I ∈ Sbc.all) {c : Nat} (h : 0xD800 ≤ c) : Sbc.byteOf I c = none := by
  cases e : Sbc.byteOf I c with
  | none => rfl
  | some b =>
    obtain ⟨h1, h2, h3⟩ := Sbc.byteOf_some e
    have G := Sbc.good_all I hI
    rcases G.range b h1 with g | g
    · omega
    · rw [(G.valid b h1).2 g] at h2; cases h2

theorem toU32_works (k : Bool) (f : Flags) (i : Fin 25) :
    Works (Sbc.toU32 (sbcOf i) f) (Legible k f (.sbc i) (.utf .utf32)) (stopAt f (.utf .utf32)) (fun m => units (.utf .utf32) m.char) := by
  refine works_of_outcome (mark := byteMark (sbcOf i)) (byteMark_size _) ?_
    fun room src ms h => Sbc.to_u32_outcome _ (sbcOf_mem i) f room src h.1
  rintro src ms ⟨hu, hm, -⟩
  refine ⟨hm, fun b hb => ⟨?_, ?_⟩⟩
  · unfold byteMark units Utf.encode
    cases (sbcOf i).isValid b <;> rfl
  · unfold byteMark stopAt supported Sbc.byteProblem reason
    cases (sbcOf i).isValid b <;> simp

theorem sanitize_works (k : Bool) (f : Flags) (i : Fin 25) :
    Works (Sbc.sanitize (sbcOf i) f) (Legible k f (.sbc i) (.sbc i)) (stopAt f (.sbc i)) (fun m => units (.sbc i) m.char) := by
  refine works_of_outcome (mark := byteMark (sbcOf i)) (byteMark_size _) ?_
    fun room src ms h => Sbc.sanitize_outcome (sbcOf i) f room src
  rintro src ms ⟨hu, hm, -⟩
  refine ⟨hm, fun b hb => ⟨?_, ?_⟩⟩
  · have hI := sbcOf_mem i
    unfold byteMark units Sbc.byteOrQuestion
    cases hv : (sbcOf i).isValid b with
    | true => rw [if_pos rfl, if_pos rfl]; dsimp only; rw [byteOf_decode hI (hu b hb) hv]; rfl
    | false => rw [if_neg (by simp), if_neg (by simp)]; dsimp only; rw [byteOf_big hI (by omega)]; rfl
  · unfold byteMark stopAt supported Sbc.byteProblem reason
    cases hv : (sbcOf i).isValid b with
    | true => simp [byteOf_decode (sbcOf_mem i) (hu b hb) hv]
    | false => simp

/-! ## From UTF-32 -/

def charMark (lax : Bool) (c : Nat) : Mark := if Scalar lax c then ⟨c, 1, false⟩ else ⟨0xFFFD, 1, true⟩

theorem charMark_size (lax : Bool) (c : Nat) : (charMark lax c).size = 1 := by unfold charMark; split <;> rfl

theorem marks_utf32 {lax : Bool} {src : List Nat} (hu : Utf.Units .utf32 src) {ms : List Mark} (h : Marks lax (.utf .utf32) src ms) :
    ms = src.map (charMark lax) := by
  obtain ⟨its, hp, rfl⟩ := h
  have key : Parses .utf32 lax src (src.map fun c => if Scalar lax c then .ch c else .bad 1) := by
    clear hp
    induction src with
    | nil => exact .nil
    | cons c t ih =>
      have ht : Utf.Units .utf32 t := fun u h => hu u (by simp [h])
      rw [List.map_cons]
      by_cases hs : Scalar lax c
      · rw [if_pos hs]
        refine .ch ⟨hs, by simp [Utf.encode], ?_⟩ (by simpa [Utf.encode] using ih ht)
        intro c' _ _; simp [Utf.encode]
      · rw [if_neg hs]
        refine .bad (by simp) ?_ ⟨by omega, by simp, .inl rfl, ?_⟩ (by simpa using ih ht)
        · intro c' h'
          have := h'.2.1
          simp only [Utf.encode, List.cons_prefix_cons] at this
          exact hs (this.1 ▸ h'.1)
        · rintro m hm hl ⟨c', hc', hp'⟩
          have := hp'.length_le
          rw [List.length_take] at this
          simp only [Utf.encode, List.length_singleton] at this
          omega
  rw [Utf.parses_unique hp key, List.map_map]
  refine List.map_congr_left fun c _ => ?_
  simp only [Function.comp, charMark]
  split <;> rfl

theorem charMark_facts {I : Sbc.Impl} (hI : I ∈ Sbc.all) (lax : Bool) (c : Nat) :
    Sbc.byteOrQuestion I (charMark lax c).char = Sbc.byteOrQuestion I c := by
  unfold charMark
  split
  · rfl
  · rename_i h
    unfold Sbc.byteOrQuestion
    have : 0xD800 ≤ c := by unfold Scalar Utf.IsSurr at h; omega
    rw [byteOf_big hI this, byteOf_big hI (by dsimp only; omega)]

theorem charMark_stop (i : Fin 25) (f : Flags) (c : Nat) :
    stopAt f (.sbc i) (charMark f.lax c) = reason f (Sbc.charProblem (sbcOf i) f.lax c) := by
  unfold charMark Sbc.charProblem
  by_cases hs : Scalar f.lax c
  · rw [if_pos hs, if_pos hs]
    unfold stopAt supported reason
    by_cases h : (Sbc.byteOf (sbcOf i) c).isSome ∨ c = 0xFFFD
    · rw [if_pos h]; dsimp only
      rw [if_neg (by simp), if_pos (by simpa using h)]
    · rw [if_neg h]; dsimp only
      rw [if_neg (by simp), if_neg (by simpa using h)]
  · have h : 0xD800 ≤ c := by unfold Scalar Utf.IsSurr at hs; omega
    have h2 : c ≠ 0xFFFD := by rintro rfl; apply hs; unfold Scalar Utf.IsSurr; omega
    rw [if_neg hs, if_neg hs, byteOf_big (sbcOf_mem i) h, if_neg (by simp [h2])]
    unfold stopAt reason
    simp

theorem charMark_spared {k : Bool} {f : Flags} {j : Fin 25} {src : List Nat}
    (h : Spared k f (.utf .utf32) (.sbc j) (src.map (charMark f.lax))) (c : Nat) (hc : c ∈ src) :
    ¬ Sbc.Defect (sbcOf j) c ∧ (k = true → Sbc.Fair f c) := by
  rcases h with h | h
  · cases h
  obtain ⟨h1, h2⟩ := h _ (List.mem_map_of_mem hc)
  unfold charMark at h1 h2
  by_cases hs : Scalar f.lax c
  · rw [if_pos hs] at h1 h2
    exact ⟨h1, fun hk => h2 hk rfl⟩
  · have hb : 0xD800 ≤ c ∧ ¬ (0xE000 ≤ c ∧ c ≤ 0xFFFF) := by unfold Scalar Utf.IsSurr at hs; omega
    refine ⟨?_, fun _ => .inr (by omega)⟩
    unfold Sbc.Defect
    simp only [List.mem_cons, List.not_mem_nil]
    rintro (⟨-, h⟩ | ⟨-, h⟩)
    · rcases h with h | h | h | h | h | h | h <;> first | exact h.elim | omega
    · omega

theorem fromU32_loop (I : Sbc.Impl) (hI : I ∈ Sbc.all) (lax : Bool) (room : Nat) (src : List Nat)
    (hd : ∀ ch ∈ src, ¬ Sbc.Defect I ch) :
    Sbc.fromU32 I ⟨lax, false, false⟩ room src = Sbc.loop (Sbc.genAct (Sbc.byteOrQuestion I) (fun ch =>
      if I.encode ch < 0x100 then .none else if Sbc.isInvalid ⟨lax, false, false⟩ ch then .invalid else .unsupported)
      ⟨lax, false, false⟩) room src := by
  have G := Sbc.good_all I hI
  unfold Sbc.fromU32
  refine Sbc.loop_congr src room fun ch hc t => ?_
  unfold Sbc.actFromU32 Sbc.genAct Sbc.byteOrQuestion
  dsimp only
  rcases Sbc.encode_cases G (Sbc.inv_of_not_defect hI (hd ch hc)) with ⟨h1, h2, h3⟩ | ⟨h1, h2, h3⟩ | ⟨h1, h2, h3⟩
  · rw [if_neg (by omega), if_pos (by omega), h2, h3]; rfl
  · rw [if_neg (by omega), if_pos h3, h2]; simp [Nat.mod_eq_of_lt h3]
  · have hn : ¬ I.encode ch < 0x100 := by omega
    rw [if_pos h3, if_neg hn, h2]
    cases Sbc.isInvalid ⟨lax, false, false⟩ ch <;> rfl

theorem fromU32_works (k : Bool) (f : Flags) (hk : f.stop = true ∨ f.stopUnsup = true → k = true) (j : Fin 25) :
    Works (Sbc.fromU32 (sbcOf j) f) (Legible k f (.utf .utf32) (.sbc j)) (stopAt f (.sbc j)) (fun m => units (.sbc j) m.char) := by
  by_cases hf : f.stop = true ∨ f.stopUnsup = true
  · have hk := hk hf
    refine works_of_outcome (mark := charMark f.lax) (charMark_size _) (unit := Sbc.byteOrQuestion (sbcOf j))
      (prob := Sbc.charProblem (sbcOf j) f.lax) (f := f) ?_ ?_
    · rintro src ms ⟨hu, hm, -⟩
      exact ⟨marks_utf32 hu hm, fun b hb => ⟨by simp only [units]; rw [charMark_facts (sbcOf_mem j)], charMark_stop j f b⟩⟩
    · rintro room src ms ⟨hu, hm, hs⟩
      have := marks_utf32 hu hm
      subst this
      exact Sbc.from_u32_outcome_partial _ (sbcOf_mem j) f room src (fun c hc => (charMark_spared hs c hc).1)
        (fun c hc => (charMark_spared hs c hc).2 hk)
  · obtain ⟨lax, st, su⟩ := f
    simp only [not_or, Bool.not_eq_true] at hf
    obtain ⟨rfl, rfl⟩ := hf
    refine works_of_outcome (mark := charMark lax) (charMark_size _) (unit := Sbc.byteOrQuestion (sbcOf j))
      (prob := fun ch => if (sbcOf j).encode ch < 0x100 then .none else
        if Sbc.isInvalid ⟨lax, false, false⟩ ch then .invalid else .unsupported) (f := ⟨lax, false, false⟩) ?_ ?_
    · rintro src ms ⟨hu, hm, -⟩
      refine ⟨marks_utf32 hu hm, fun b hb => ⟨by simp only [units]; rw [charMark_facts (sbcOf_mem j)], ?_⟩⟩
      unfold stopAt reason
      simp only [Bool.false_eq_true, if_false, ite_self]
      split <;> rfl
    · rintro room src ms ⟨hu, hm, hs⟩
      have := marks_utf32 hu hm
      subst this
      rw [fromU32_loop _ (sbcOf_mem j) lax room src fun c hc => (charMark_spared hs c hc).1]
      exact Sbc.loop_outcome _ _ _ src room

/-! ## The transcoders -/

theorem tr_works (k : Bool) (f : Flags) (hk : f.stop = true ∨ f.stopUnsup = true → k = true) (s d : CsName)
    (h : hasSpec s d = true) :
    Works (Tr.func ⟨s, d⟩ f) (Legible k f s d) (stopAt f d) (fun m => units d m.char) := by
  cases s with
  | utf s =>
    cases d with
    | utf d => exact utf_works k f s d
    | sbc j =>
      have : s = .utf32 := by simpa [hasSpec] using h
      subst this
      exact fromU32_works k f hk j
  | sbc i =>
    cases d with
    | utf d =>
      have : d = .utf32 := by simpa [hasSpec] using h
      subst this
      exact toU32_works k f i
    | sbc j =>
      have : i = j := by simpa [hasSpec] using h
      subst this
      exact sanitize_works k f i

/-! ## The unsafe functions -/

theorem sound_allGood {f : Flags} {e : Enc} {d : CsName} {src : List Nat} {ms : List Mark} (h : Sound f (.utf e) d src ms) :
    Utf.AllGood e f.lax src := by
  obtain ⟨⟨hu, ⟨its, hp, rfl⟩, -⟩, hb⟩ := h
  intro i hi
  rw [Utf.parses_unique (Utf.parses_items src hu) hp] at hi
  exact hb _ (List.mem_map_of_mem hi)

theorem sound_valid {f : Flags} {i : Fin 25} {d : CsName} {src : List Nat} {ms : List Mark} (h : Sound f (.sbc i) d src ms) :
    ∀ b ∈ src, b < 256 ∧ (sbcOf i).isValid b = true := by
  obtain ⟨⟨hu, hm, -⟩, hb⟩ := h
  intro b hmem
  refine ⟨hu b hmem, ?_⟩
  have := hb (byteMark (sbcOf i) b) (by rw [show ms = _ from hm]; exact List.mem_map_of_mem hmem)
  unfold byteMark at this
  cases hv : (sbcOf i).isValid b with
  | true => rfl
  | false => rw [hv] at this; cases this

theorem unsafe_works (f : Flags) (s d : CsName) (h : hasSpec s d = true) :
    Works (Tr.unsafeFunc ⟨s, d⟩ f) (Sound f s d) (stopAt f d) (fun m => units d m.char) := by
  cases s with
  | utf s =>
    cases d with
    | utf d =>
      refine ((utf_works false f s d).mono fun _ _ h => h.1).congr fun room src ms h => ?_
      unfold Tr.unsafeFunc Charset.utfUnsafe Charset.utfFunc
      obtain ⟨r, e1, e2⟩ := Utf.unsafe_agrees s d (utfFlags f) room src
        (Utf.AllGood.wellFormed h.1.1 (sound_allGood (d := .utf d) h))
      dsimp only
      rw [e1, e2]
    | sbc j =>
      have : s = .utf32 := by simpa [hasSpec] using h
      subst this
      refine works_of_outcome (mark := charMark f.lax) (charMark_size _) (unit := Sbc.byteOrQuestion (sbcOf j))
        (prob := Sbc.charProblem (sbcOf j) f.lax) (f := f) ?_ ?_
      · rintro src ms ⟨⟨hu, hm, -⟩, -⟩
        exact ⟨marks_utf32 hu hm, fun b hb => ⟨by simp only [units]; rw [charMark_facts (sbcOf_mem j)], charMark_stop j f b⟩⟩
      · rintro room src ms ⟨⟨hu, hm, hs⟩, hb⟩
        have := marks_utf32 hu hm
        subst this
        refine Sbc.unsafe_from_u32_outcome _ (sbcOf_mem j) f room src (fun c hc => (charMark_spared hs c hc).1) fun c hc => ?_
        have := hb _ (List.mem_map_of_mem hc)
        unfold charMark at this
        by_contra hn
        rw [if_neg hn] at this
        cases this
  | sbc i =>
    cases d with
    | utf d =>
      have : d = .utf32 := by simpa [hasSpec] using h
      subst this
      refine ((toU32_works false f i).mono fun _ _ h => h.1).congr fun room src ms h => ?_
      obtain ⟨r, e1, e2, -⟩ := Sbc.unsafe_to_u32_outcome _ (sbcOf_mem i) f room src (sound_valid h)
      show Sbc.unsafeToU32 (sbcOf i) room src = _
      rw [e1, e2]
    | sbc j =>
      have : i = j := by simpa [hasSpec] using h
      subst this
      exact ((sanitize_works false f i).mono fun _ _ h => h.1).congr fun room src ms h =>
        Print.unsafeSanitize_eq f room src fun b hb => (sound_valid h b hb).2

/-! ## Encoding what has been decoded -/

/-- the code points that `from_u32` is given -/
def Codable (f : Flags) (d : CsName) (c : Nat) : Prop :=
  Scalar f.lax c ∧ ∀ j, d = .sbc j → ¬ Sbc.Defect (sbcOf j) c

theorem codable_sound {f : Flags} {d : CsName} {cs : List Nat} (h : ∀ c ∈ cs, Codable f d c) :
    Sound f (.utf .utf32) d cs (cs.map fun c => ⟨c, 1, false⟩) := by
  refine ⟨⟨fun u hu => ?_, ⟨cs.map .ch, ?_, ?_⟩, ?_⟩, ?_⟩
  · have := (h u hu).1.1; show u < 0x100000000; omega
  · have := Utf.parses_wf (e := .utf32) (lax := f.lax) (by simp) cs fun c hc => (h c hc).1
    rwa [show cs.flatMap (Utf.encode .utf32) = cs from by
      show List.flatMap (fun c => [c]) cs = cs
      simp] at this
  · rw [List.map_map]; rfl
  · cases d with
    | utf _ => trivial
    | sbc j =>
      refine .inr fun m hm => ?_
      obtain ⟨c, hc, rfl⟩ := List.mem_map.1 hm
      exact ⟨(h c hc).2 j rfl, by simp⟩
  · intro m hm
    obtain ⟨c, hc, rfl⟩ := List.mem_map.1 hm
    rfl

/-- whether the flags ask to stop before a code point that the charset lacks -/
def lacks (f : Flags) (d : CsName) (c : Nat) : Bool := f.stopUnsup && !supported d c

theorem fromU32_hasSpec (d : CsName) : hasSpec (.utf .utf32) d = true := by cases d <;> rfl
theorem toU32_hasSpec (s : CsName) : hasSpec s (.utf .utf32) = true := by cases s <;> rfl

theorem from_encodes (f : Flags) (d : CsName) : Encodes ((fromU32 d).unsafeFunc f) (Codable f d) (units d) (lacks f d) := by
  intro room cs hc
  obtain ⟨done, todo, why, ev, e0, e1, e2, e3, e4⟩ := unsafe_works f _ d (fromU32_hasSpec d) room cs _ (codable_sound hc)
  obtain ⟨x, y, rfl, rfl, rfl⟩ := List.map_eq_append_iff.1 e0
  have hst : ∀ c, stopAt f d ⟨c, 1, false⟩ = if lacks f d c then some .unsupported else none := by
    intro c
    unfold stopAt lacks
    cases supported d c <;> simp
  rw [flatMap_map] at e2 e3 e4
  rw [extent_ones (mark := fun c => ⟨c, 1, false⟩) (fun _ => rfl), List.drop_left] at e3
  refine ⟨x, y, why, ev, rfl, ?_, e2, e3, ?_⟩
  · intro c hc
    have := e1 _ (List.mem_map_of_mem hc)
    rw [hst] at this
    cases hl : lacks f d c with
    | false => rfl
    | true => rw [hl] at this; cases this
  · rcases y with _ | ⟨c, y⟩
    · exact e4
    · rcases e4 with ⟨h1, -, -⟩ | ⟨h1, h2, h3⟩
      · rw [hst] at h1
        cases hl : lacks f d c with
        | false => rw [hl] at h1; cases h1
        | true => rw [hl, if_pos rfl] at h1; injection h1 with h1; exact .inl ⟨hl, h1.symm⟩
      · rw [hst] at h1
        cases hl : lacks f d c with
        | false => exact .inr ⟨hl, h2, h3⟩
        | true => rw [hl] at h1; cases h1

theorem from_size (f : Flags) (d : CsName) : SizeAgrees ((fromU32 d).unsafeSize f) ((fromU32 d).unsafeFunc f) (Codable f d) := by
  intro limit cs hc
  cases d with
  | utf d =>
    have hw := Utf.AllGood.wellFormed (codable_sound hc).1.1 (sound_allGood (codable_sound hc))
    obtain ⟨r, e, e2⟩ := Utf.unsafe_agrees .utf32 d (utfFlags f) limit cs hw
    obtain ⟨r', e', e3⟩ := Utf.unsafe_size_agrees_partial .utf32 d (utfFlags f) limit cs hw (by simp)
    rw [e] at e'
    injection e' with e'
    subst e'
    show Utf.unsafeTranscodeSize .utf32 d (utfFlags f) limit cs = _
    rw [e3]
    show _ = Option.map _ (Charset.utfUnsafe .utf32 d (utfFlags f) limit cs)
    unfold Charset.utfUnsafe
    rw [e2]
    rfl
  | sbc j => exact Sbc.unsafe_from_u32_size_exact (sbcOf j) f limit cs

end Strf.Transcode

import Verif.Utf.DecodeOk
import Verif.Utf.Outcome
/-! # Every transcoder refines the specification -/
namespace Strf.Utf

theorem Units.tail {e : Enc} {ch : Nat} {t : List Nat} (h : Units e (ch :: t)) : Units e t :=
  fun u hu => h u (List.mem_cons_of_mem _ hu)
theorem Units.drop {e : Enc} {l : List Nat} (h : Units e l) (n : Nat) : Units e (l.drop n) :=
  fun u hu => h u (List.mem_of_mem_drop hu)

/-- The items of a source. -/
def items (e : Enc) (lax : Bool) : List Nat → List Item
  | [] => []
  | ch :: t => (dec e lax ch t).item :: items e lax (t.drop ((dec e lax ch t).n - 1))
  termination_by src => src.length
  decreasing_by simp; omega

theorem TokOk.n_pos {e : Enc} {lax : Bool} {src : List Nat} {k : Tok} (h : TokOk e lax src k) : 1 ≤ k.n := by
  obtain ⟨i, n⟩ := k
  cases i with
  | ch c => have h1 := encode_pos e c; have h2 : n = _ := h.1; show 1 ≤ n; omega
  | bad m => have h1 : n = m := h.1; have h2 : 1 ≤ m := h.2.2.1; show 1 ≤ n; omega

theorem TokOk.n_eq {e : Enc} {lax : Bool} {src : List Nat} {k : Tok} (h : TokOk e lax src k) :
    k.n = k.item.size e := by
  obtain ⟨i, n⟩ := k
  cases i with
  | ch c => exact h.1
  | bad m => exact h.1

theorem TokOk.n_le {e : Enc} {lax : Bool} {src : List Nat} {k : Tok} (h : TokOk e lax src k) :
    k.n ≤ src.length := by
  obtain ⟨i, n⟩ := k
  cases i with
  | ch c =>
    have h1 : n = _ := h.1
    have h2 : (encode e c).length = (src.take n).length := congrArg List.length h.2.2.1
    rw [List.length_take] at h2
    show n ≤ src.length; omega
  | bad m => have h1 : n = m := h.1; have h2 : m ≤ src.length := h.2.2.2.1; show n ≤ src.length; omega

theorem drop_cons_pred {ch n : Nat} {t : List Nat} (h : 1 ≤ n) : (ch :: t).drop n = t.drop (n - 1) := by
  obtain ⟨m, rfl⟩ : ∃ m, n = m + 1 := ⟨n - 1, by omega⟩
  rfl

theorem parses_items {e : Enc} {lax : Bool} (src : List Nat) (h : Units e src) :
    Parses e lax src (items e lax src) := by
  induction hn : src.length using Nat.strongRecOn generalizing src with
  | _ n ih =>
    subst hn
    rcases src with _ | ⟨ch, t⟩
    · unfold items; exact .nil
    · unfold items
      have ok := dec_ok (lax := lax) h
      have hp := ok.n_pos
      have rec_ := ih (t.drop ((dec e lax ch t).n - 1)).length (by simp; omega) _ (h.tail.drop _) rfl
      rw [← drop_cons_pred (ch := ch) hp] at rec_ ⊢
      rw [ok.n_eq] at rec_ ⊢
      revert ok rec_
      generalize dec e lax ch t = k
      obtain ⟨i, n⟩ := k
      cases i with
      | ch c => intro ok rec_; exact .ch ok.2.2.2 rec_
      | bad m => intro ok rec_; exact .bad (by simp) ok.2.1 ok.2.2 rec_

/-- One iteration according to the specification. -/
def specStep (d : Enc) (stop : Bool) (room ch : Nat) (t : List Nat) (k : Tok) : Step :=
  let seq := ch :: t
  let notes := if k.item.isBad then [⟨seq.length, k.n⟩] else []
  if stop && k.item.isBad then .ret seq .invalid notes
  else if room < (encode d k.item.char).length then .ret seq .insufficient notes
  else .cont (encode d k.item.char) (t.drop (k.n - 1)) notes

/-- A transcoder's loop body is the one prescribed. -/
def StepOk (s d : Enc) (f : Flags) (step : Nat → Nat → List Nat → Step) : Prop :=
  ∀ room ch t, Units s (ch :: t) → step room ch t = specStep d f.stop room ch t (dec s f.lax ch t)

theorem emit_ch {d : Enc} {stop : Bool} {room need ch n c : Nat} {t units next : List Nat}
    (hu : units = encode d c) (hn : need = units.length) (ht : next = t.drop (n - 1)) :
    emit room need units next (ch :: t) [] = specStep d stop room ch t ⟨.ch c, n⟩ := by
  subst hu hn ht
  unfold emit specStep
  simp only [Item.isBad, Item.char, Bool.and_false, Bool.false_eq_true, if_false]
  split_ifs <;> rfl

theorem invalid_bad {d : Enc} {stop : Bool} {room need ch n : Nat} {t units next : List Nat}
    (hu : units = encode d 0xFFFD) (hn : need = units.length) (hn1 : 1 ≤ n) (hnl : n ≤ t.length + 1)
    (ht : next = t.drop (n - 1)) :
    invalidSeq stop room need units next (ch :: t) = specStep d stop room ch t ⟨.bad n, n⟩ := by
  subst hu hn ht
  unfold invalidSeq emit specStep
  have e : (ch :: t).length - (t.drop (n - 1)).length = n := by simp; omega
  simp only [Item.isBad, Item.char, Bool.and_true, if_true, e]
  split_ifs <;> rfl

/-- The whole call, given that each iteration is right. -/
theorem run_outcome {s d : Enc} {f : Flags} {step : Nat → Nat → List Nat → Step} (hs : StepOk s d f step)
    (room : Nat) (src : List Nat) (h : Units s src) :
    ∃ r, run step room src = some r ∧ Outcome s d f.stop room src (items s f.lax src) r := by
  induction hn : src.length using Nat.strongRecOn generalizing src room with
  | _ n ih =>
    subst hn
    rcases src with _ | ⟨ch, t⟩
    · refine ⟨⟨[], [], .completed, []⟩, by unfold run; rfl, [], [], ?_⟩
      unfold items
      simp [render, extent, badNotes]
    · have ok := dec_ok (lax := f.lax) h
      have hp := ok.n_pos
      have hle := ok.n_le
      have hsz := ok.n_eq
      unfold run items
      rw [hs room ch t h]
      revert ok hp hle hsz
      generalize dec s f.lax ch t = k
      obtain ⟨i, n⟩ := k
      intro ok hp hle hsz
      dsimp only at hp hle hsz ⊢
      simp only [List.length_cons] at hle
      unfold specStep
      dsimp only
      by_cases c0 : (f.stop && i.isBad) = true
      · rw [if_pos c0]
        simp only [Bool.and_eq_true] at c0
        refine ⟨_, rfl, [], i :: _, rfl, rfl, rfl, Nat.zero_le _, ?_, ?_, ?_⟩
        · intro _ i hi; cases hi
        · cases i with
          | ch c => simp [Item.isBad] at c0
          | bad m => simp [Item.isBad, badNotes] at *; exact hsz
        · cases i with
          | ch c => simp [Item.isBad] at c0
          | bad m => exact ⟨c0.1, m, _, rfl⟩
      · rw [if_neg c0]
        simp only [Bool.and_eq_true] at c0
        by_cases c1 : room < (encode d i.char).length
        · rw [if_pos c1]
          refine ⟨_, rfl, [], i :: _, rfl, rfl, rfl, Nat.zero_le _, ?_, ?_, ?_⟩
          · intro _ i hi; cases hi
          · cases i with
            | ch c => simp [Item.isBad, badNotes]
            | bad m => simp [Item.isBad, badNotes]; exact hsz
          · exact ⟨i, _, rfl, c0, by simpa [render] using c1⟩
        · rw [if_neg c1]
          dsimp only
          have hl : (t.drop (n - 1)).length ≤ t.length := by simp
          obtain ⟨r, hr, done, todo, h1, h2, h3, h4, h5, h6, h7⟩ :=
            ih (t.drop (n - 1)).length (by simp; omega) (room - (encode d i.char).length) (t.drop (n - 1))
              (h.tail.drop _) rfl
          rw [dif_pos hl, hr]
          refine ⟨_, rfl, i :: done, todo, by rw [h1]; rfl, ?_, ?_, ?_, ?_, ?_, ?_⟩
          · simp [h2, render]
          · simp only [h3, extent]
            rw [← hsz, ← drop_cons_pred (ch := ch) hp, List.drop_drop]
          · simp only [List.length_append]; omega
          · intro hst j hj
            rcases List.mem_cons.1 hj with rfl | hj
            · revert c0; rw [hst]; cases j.isBad <;> simp
            · exact h5 hst j hj
          · simp only [h6]
            cases i with
            | ch c =>
              simp only [Item.isBad, List.cons_append, badNotes, List.length_cons, ← hsz]
              simp only [List.length_drop, Bool.false_eq_true, if_false, List.nil_append]
              congr 1; omega
            | bad m =>
              have : n = m := hsz
              subst this
              simp only [Item.isBad, List.cons_append, badNotes, List.length_cons, if_true]
              simp only [List.length_drop, List.nil_append, List.cons.injEq, true_and]
              congr 1; omega
          · revert h7
            dsimp only
            cases r.why with
            | completed => exact id
            | insufficient =>
              rintro ⟨i', t', e1, e2, e3⟩
              refine ⟨i', t', e1, e2, ?_⟩
              simp only [render, List.flatMap_cons, List.length_append] at e3 ⊢
              omega
            | invalid => exact id
            | unsupported => exact id

/-! ## The nine loop bodies -/

theorem enc16_bmp {c : Nat} (h : c < 0x10000) : encode .utf16 c = [c] := by
  simp only [encode]; rw [if_pos h]

theorem repl8 : [0xEF, 0xBF, 0xBD] = encode .utf8 0xFFFD := by decide

/-- The length of a UTF-8 sequence tells the range of the code point. -/
theorem len8_range {c n : Nat} (h : n = (encode .utf8 c).length) :
    (n ≤ 3 → c < 0x10000) ∧ (n = 4 → 0x10000 ≤ c) := by
  subst h; simp only [encode]; split_ifs <;> simp <;> omega

theorem tok16_of_8 {lax : Bool} {src : List Nat} {c n : Nat} (ok : TokOk .utf8 lax src ⟨.ch c, n⟩) (h : n ≤ 3) :
    [tr16 c] = encode .utf16 c := by
  have := (len8_range ok.1).1 h
  rw [enc16_bmp this, tr16, Nat.mod_eq_of_lt this]

theorem tok16_of_8' {lax : Bool} {src : List Nat} {c : Nat} (ok : TokOk .utf8 lax src ⟨.ch c, 4⟩) :
    [tr16 (0xD800 + ((c - 0x10000) >>> 10)), tr16 (0xDC00 + ((c - 0x10000) &&& 0x3FF))] = encode .utf16 c := by
  have h1 := (len8_range ok.1).2 rfl
  have h2 := ok.2.1.1
  exact pair_add h1 (by omega)

macro "leafs" : tactic => `(tactic| (
  first
  | exact emit_ch rfl rfl rfl
  | exact invalid_bad rfl rfl (by decide) (by simp) rfl
  | exact invalid_bad repl8 rfl (by decide) (by simp) rfl
  | exact emit_ch (TokOk.2.2.1 ‹_›).symm rfl rfl
  | (subst_vars; exact absurd rfl ‹_›)))

theorem stepOk_8to32 (f : Flags) : StepOk .utf8 .utf32 f (step8to32 f) := by
  intro room ch t _
  unfold step8to32
  simp only [dec]
  unfold dec8
  split_ifs
  · leafs
  · rcases t with _ | ⟨b1, t⟩ <;> dsimp only <;> (try split_ifs) <;> leafs
  · rcases t with _ | ⟨b1, _ | ⟨b2, t⟩⟩ <;> dsimp only <;> (try split_ifs) <;> leafs
  · rcases t with _ | ⟨b1, _ | ⟨b2, t⟩⟩ <;> dsimp only <;> (try split_ifs) <;> leafs
  · rcases t with _ | ⟨b1, _ | ⟨b2, _ | ⟨b3, t⟩⟩⟩ <;> dsimp only <;> (try split_ifs) <;> leafs

theorem stepOk_8to8 (f : Flags) : StepOk .utf8 .utf8 f (step8to8 f) := by
  intro room ch t h
  have ok := dec8_ok (lax := f.lax) h
  revert ok
  unfold step8to8
  simp only [dec]
  unfold dec8
  have e : ∀ x : Nat, (0xA0 = x &&& 0xE0) = (x &&& 0xE0 = 0xA0) := fun x => propext eq_comm
  simp only [e]
  have key : ∀ {c n : Nat} {units next : List Nat}, TokOk .utf8 f.lax (ch :: t) ⟨.ch c, n⟩ →
      units = (ch :: t).take n → n = units.length → next = t.drop (n - 1) →
      emit room n units next (ch :: t) [] = specStep .utf8 f.stop room ch t ⟨.ch c, n⟩ :=
    fun ok h1 h2 h3 => emit_ch (h1.trans ok.2.2.1.symm) h2 h3
  split_ifs
  · intro ok; exact key ok rfl rfl rfl
  · rcases t with _ | ⟨b1, t⟩ <;> dsimp only <;> (try split_ifs) <;> intro ok <;>
      first | leafs | exact key ok rfl rfl rfl
  · rcases t with _ | ⟨b1, _ | ⟨b2, t⟩⟩ <;> dsimp only <;> (try split_ifs) <;> intro ok <;>
      first | leafs | exact key ok rfl rfl rfl
  · rcases t with _ | ⟨b1, _ | ⟨b2, t⟩⟩ <;> dsimp only <;> (try split_ifs) <;> intro ok <;>
      first | leafs | exact key ok rfl rfl rfl
  · rcases t with _ | ⟨b1, _ | ⟨b2, _ | ⟨b3, t⟩⟩⟩ <;> dsimp only <;> (try split_ifs) <;> intro ok <;>
      first | leafs | exact key ok rfl rfl rfl

theorem stepOk_8to16 (f : Flags) : StepOk .utf8 .utf16 f (step8to16 f) := by
  intro room ch t h
  have ok := dec8_ok (lax := f.lax) h
  revert ok
  unfold step8to16
  simp only [dec]
  unfold dec8
  have key : ∀ {c n : Nat} {next : List Nat}, n ≤ 3 → TokOk .utf8 f.lax (ch :: t) ⟨.ch c, n⟩ →
      next = t.drop (n - 1) →
      emit room 1 [tr16 c] next (ch :: t) [] = specStep .utf16 f.stop room ch t ⟨.ch c, n⟩ :=
    fun hn ok h3 => emit_ch (tok16_of_8 ok hn) rfl h3
  split_ifs
  · intro ok; exact key (by decide) ok rfl
  · rcases t with _ | ⟨b1, t⟩ <;> dsimp only <;> (try split_ifs) <;> intro ok <;>
      first | leafs | exact key (by decide) ok rfl
  · rcases t with _ | ⟨b1, _ | ⟨b2, t⟩⟩ <;> dsimp only <;> (try split_ifs) <;> intro ok <;>
      first | leafs | exact key (by decide) ok rfl
  · rcases t with _ | ⟨b1, _ | ⟨b2, t⟩⟩ <;> dsimp only <;> (try split_ifs) <;> intro ok <;>
      first | leafs | exact key (by decide) ok rfl
  · rcases t with _ | ⟨b1, _ | ⟨b2, _ | ⟨b3, t⟩⟩⟩ <;> dsimp only <;> (try split_ifs) <;> intro ok <;>
      first | leafs | exact emit_ch (tok16_of_8' ok) rfl rfl

theorem stepOk_16to32 (f : Flags) : StepOk .utf16 .utf32 f (step16to32 f) := by
  intro room ch t _
  unfold step16to32
  simp only [dec]
  unfold dec16
  dsimp only
  rcases t with _ | ⟨b1, t⟩ <;> dsimp only <;> split_ifs <;> leafs

theorem stepOk_16to16 (f : Flags) : StepOk .utf16 .utf16 f (step16to16 f) := by
  intro room ch t h
  have h0 : ch < 0x10000 := h ch (by simp)
  have ok := dec16_ok (lax := f.lax) h
  revert ok
  unfold step16to16
  simp only [dec]
  unfold dec16
  dsimp only
  rcases t with _ | ⟨b1, t⟩ <;> dsimp only <;> split_ifs <;> intro ok <;>
    first
    | exact emit_ch (enc16_bmp h0).symm rfl rfl
    | exact invalid_bad (enc16_bmp (by decide)).symm rfl (by decide) (by simp) rfl
    | exact emit_ch ok.2.2.1.symm rfl rfl

theorem stepOk_16to8 (f : Flags) : StepOk .utf16 .utf8 f (step16to8 f) := by
  intro room ch t h
  have h0 : ch < 0x10000 := h ch (by simp)
  have ns : ch < 0x800 → ¬ isSurrogate ch = true := by
    rw [isSurrogate_iff]; unfold IsSurr; omega
  unfold step16to8
  simp only [dec]
  unfold dec16
  dsimp only
  by_cases c0 : ch < 0x80
  · rw [if_pos c0, if_neg (ns (by omega))]
    refine emit_ch ?_ rfl rfl
    simp only [encode]; rw [if_pos c0]
  rw [if_neg c0]
  by_cases c1 : ch < 0x800
  · rw [if_pos c1, if_neg (ns (by omega))]
    exact emit_ch (put2_eq (by omega) c1) rfl rfl
  rw [if_neg c1]
  have p3 := put3_eq (c := ch) (by omega) h0
  by_cases c2 : isSurrogate ch = true
  · rw [if_neg (by simp [c2]), if_pos c2]
    rcases t with _ | ⟨b1, t⟩
    · dsimp only
      cases f.lax
      · exact invalid_bad repl8 rfl (by decide) (by simp) rfl
      · exact emit_ch p3 rfl rfl
    · dsimp only
      by_cases c3 : isHigh ch = true ∧ isLow b1 = true
      · rw [if_pos c3, if_pos c3]
        have : 0x10000 ≤ fromPair ch b1 ∧ fromPair ch b1 < 0x110000 := by rw [fromPair_eq]; omega
        exact emit_ch (put4_eq this.1 this.2) rfl rfl
      · rw [if_neg c3, if_neg c3]
        cases f.lax
        · exact invalid_bad repl8 rfl (by decide) (by simp) rfl
        · exact emit_ch p3 rfl rfl
  · rw [if_pos (by simpa using c2), if_neg c2]
    exact emit_ch p3 rfl rfl

theorem dec32_bad {f : Flags} {ch : Nat} {t : List Nat} (h : ch ≥ 0x110000 ∨ (f.lax = false ∧ isSurrogate ch = true)) :
    dec32 f.lax ch t = ⟨.bad 1, 1⟩ := by unfold dec32; rw [if_pos h]
theorem dec32_ch {f : Flags} {ch : Nat} {t : List Nat} (h : ch < 0x110000) (h2 : f.lax = true ∨ isSurrogate ch = false) :
    dec32 f.lax ch t = ⟨.ch ch, 1⟩ := by
  unfold dec32; rw [if_neg]; rintro (g | ⟨g1, g2⟩)
  · omega
  · rcases h2 with h2 | h2 <;> simp_all

theorem notSurr_of {ch : Nat} (h : ch < 0xD800 ∨ 0xE000 ≤ ch) : isSurrogate ch = false := by
  rw [← Bool.not_eq_true, isSurrogate_iff]; unfold IsSurr; omega

theorem stepOk_32to8 (f : Flags) : StepOk .utf32 .utf8 f (step32to8 f) := by
  intro room ch t _
  unfold step32to8
  simp only [dec]
  by_cases c0 : ch < 0x80
  · rw [if_pos c0, dec32_ch (by omega) (.inr (notSurr_of (by omega)))]
    refine emit_ch ?_ rfl rfl
    simp only [encode]; rw [if_pos c0]
  rw [if_neg c0]
  by_cases c1 : ch < 0x800
  · rw [if_pos c1, dec32_ch (by omega) (.inr (notSurr_of (by omega)))]
    exact emit_ch (put2_eq (by omega) c1) rfl rfl
  rw [if_neg c1]
  by_cases c2 : ch < 0x10000
  · rw [if_pos c2]
    by_cases c3 : (f.lax || !isSurrogate ch) = true
    · rw [if_pos c3, dec32_ch (by omega) (by simpa using c3)]
      exact emit_ch (put3_eq (by omega) c2) rfl rfl
    · rw [if_neg c3, dec32_bad (.inr (by simpa using c3))]
      exact invalid_bad repl8 rfl (by decide) (by simp) rfl
  rw [if_neg c2]
  by_cases c3 : ch < 0x110000
  · rw [if_pos c3, dec32_ch (by omega) (.inr (notSurr_of (by omega)))]
    exact emit_ch (put4_eq (by omega) c3) rfl rfl
  · rw [if_neg c3, dec32_bad (.inl (by omega))]
    exact invalid_bad repl8 rfl (by decide) (by simp) rfl

theorem stepOk_32to16 (f : Flags) : StepOk .utf32 .utf16 f (step32to16 f) := by
  intro room ch t _
  unfold step32to16
  simp only [dec]
  by_cases c2 : ch < 0x10000
  · rw [if_pos c2]
    by_cases c3 : (f.lax || !isSurrogate ch) = true
    · rw [if_pos c3, dec32_ch (by omega) (by simpa using c3)]
      exact emit_ch (enc16_bmp c2).symm rfl rfl
    · rw [if_neg c3, dec32_bad (.inr (by simpa using c3))]
      exact invalid_bad (enc16_bmp (by decide)).symm rfl (by decide) (by simp) rfl
  rw [if_neg c2]
  by_cases c3 : ch < 0x110000
  · rw [if_pos c3, dec32_ch (by omega) (.inr (notSurr_of (by omega)))]
    exact emit_ch (pair_or (by omega) c3) rfl rfl
  · rw [if_neg c3, dec32_bad (.inl (by omega))]
    exact invalid_bad (enc16_bmp (by decide)).symm rfl (by decide) (by simp) rfl

theorem stepOk_32to32 (f : Flags) : StepOk .utf32 .utf32 f (step32to32 f) := by
  intro room ch t _
  unfold step32to32
  simp only [dec]
  by_cases c0 : f.lax = true
  · rw [if_pos c0]
    by_cases c1 : ch ≥ 0x110000
    · rw [if_pos c1, dec32_bad (.inl c1)]
      exact invalid_bad rfl rfl (by decide) (by simp) rfl
    · rw [if_neg c1, dec32_ch (by omega) (.inl c0)]
      exact emit_ch rfl rfl rfl
  · rw [if_neg c0]
    by_cases c1 : ch ≥ 0x110000 ∨ isSurrogate ch = true
    · rw [if_pos c1, dec32_bad (c1.imp_right fun h => ⟨by simpa using c0, h⟩)]
      exact invalid_bad rfl rfl (by decide) (by simp) rfl
    · rw [if_neg c1, dec32_ch (by omega) (.inr (by simpa using (not_or.1 c1).2))]
      exact emit_ch rfl rfl rfl

/-- The master theorem: every call of every transcoder stays inside its buffers and has a correct outcome. -/
theorem transcode_outcome (s d : Enc) (f : Flags) (room : Nat) (src : List Nat) (h : Units s src) :
    ∃ r, transcode s d f room src = some r ∧ Outcome s d f.stop room src (items s f.lax src) r := by
  cases s <;> cases d
  · exact run_outcome (stepOk_8to8 f) room src h
  · exact run_outcome (stepOk_8to16 f) room src h
  · exact run_outcome (stepOk_8to32 f) room src h
  · exact run_outcome (stepOk_16to8 f) room src h
  · exact run_outcome (stepOk_16to16 f) room src h
  · exact run_outcome (stepOk_16to32 f) room src h
  · exact run_outcome (stepOk_32to8 f) room src h
  · exact run_outcome (stepOk_32to16 f) room src h
  · exact run_outcome (stepOk_32to32 f) room src h

end Strf.Utf

import Verif.Utf.Refine
import Verif.Utf.ModelSize
/-! # transcode_size agrees with transcode -/
namespace Strf.Utf

/-- The loop with the prescribed body. -/
abbrev specRun (s d : Enc) (f : Flags) (room : Nat) (src : List Nat) : Option TR :=
  run (fun room ch t => specStep d f.stop room ch t (dec s f.lax ch t)) room src

theorem run_eq_spec {s d : Enc} {f : Flags} {step : Nat → Nat → List Nat → Step} (hs : StepOk s d f step)
    (room : Nat) (src : List Nat) (h : Units s src) : run step room src = specRun s d f room src := by
  induction hn : src.length using Nat.strongRecOn generalizing src room with
  | _ n ih =>
    subst hn
    rcases src with _ | ⟨ch, t⟩
    · unfold specRun run; rfl
    · unfold specRun run
      rw [hs room ch t h]
      split
      · rfl
      · rfl
      · rename_i units next notes heq
        split_ifs with hl
        · have hu : Units s next := by
            unfold specStep at heq
            dsimp only at heq
            split_ifs at heq
            all_goals
              injection heq with _ e _
              rw [← e]; exact h.tail.drop _
          rw [ih next.length (by simp; omega) _ _ hu rfl]
        · rfl

theorem transcode_eq_spec (s d : Enc) (f : Flags) (room : Nat) (src : List Nat) (h : Units s src) :
    transcode s d f room src = specRun s d f room src := by
  cases s <;> cases d
  · exact run_eq_spec (stepOk_8to8 f) room src h
  · exact run_eq_spec (stepOk_8to16 f) room src h
  · exact run_eq_spec (stepOk_8to32 f) room src h
  · exact run_eq_spec (stepOk_16to8 f) room src h
  · exact run_eq_spec (stepOk_16to16 f) room src h
  · exact run_eq_spec (stepOk_16to32 f) room src h
  · exact run_eq_spec (stepOk_32to8 f) room src h
  · exact run_eq_spec (stepOk_32to16 f) room src h
  · exact run_eq_spec (stepOk_32to32 f) room src h

/-- What the size loop must do in one iteration. -/
def specSize (d : Enc) (stop : Bool) (limit size ch : Nat) (t : List Nat) (k : Tok) : SStep :=
  if stop && k.item.isBad then .ret ⟨size, ch :: t, .invalid⟩
  else if limit < size + (encode d k.item.char).length then .ret ⟨size, ch :: t, .insufficient⟩
  else .cont (size + (encode d k.item.char).length) (t.drop (k.n - 1))

/-- The expected result of transcode_size. -/
def sizeOf (size : Nat) (r : TR) : SR := ⟨size + r.out.length, r.rest, r.why⟩

theorem size_of_spec {s d : Enc} {f : Flags} {limit : Nat} {step : Nat → Nat → List Nat → SStep}
    (I : Nat → List Nat → Prop)
    (hI : ∀ size ch t, I size (ch :: t) → size ≤ limit → Units s (ch :: t) →
      (step size ch t = specSize d f.stop limit size ch t (dec s f.lax ch t) ∧
        ∀ s' n, step size ch t = .cont s' n → I s' n) ∨
      (∃ n w notes, specSize d f.stop limit size ch t (dec s f.lax ch t) = .cont limit n ∧
        step size ch t = .ret ⟨limit, n, w⟩ ∧ specRun s d f 0 n = some ⟨n, [], w, notes⟩))
    (size : Nat) (src : List Nat) (hi : I size src) (hl : size ≤ limit) (h : Units s src) :
    runSize step size src = (specRun s d f (limit - size) src).map (sizeOf size) := by
  induction hn : src.length using Nat.strongRecOn generalizing src size with
  | _ n ih =>
    subst hn
    rcases src with _ | ⟨ch, t⟩
    · unfold runSize specRun run; rfl
    · have ok := dec_ok (lax := f.lax) h
      have hp := ok.n_pos
      have hd : (t.drop ((dec s f.lax ch t).n - 1)).length ≤ t.length := by simp
      rcases hI size ch t hi hl h with ⟨e, hc⟩ | ⟨n, w, notes, e1, e2, e3⟩
      · unfold runSize specRun run
        rw [e] at hc ⊢
        unfold specSize at hc ⊢
        unfold specStep
        dsimp only
        by_cases c0 : (f.stop && (dec s f.lax ch t).item.isBad) = true
        · rw [if_pos c0, if_pos c0]; rfl
        · rw [if_neg c0] at hc
          rw [if_neg c0, if_neg c0]
          by_cases c1 : limit < size + (encode d (dec s f.lax ch t).item.char).length
          · rw [if_pos c1, if_pos (by omega)]; rfl
          · rw [if_neg c1] at hc
            rw [if_neg c1, if_neg (by omega)]
            dsimp only
            rw [dif_pos hd, dif_pos hd]
            have := ih _ (by simp; omega) (size + (encode d (dec s f.lax ch t).item.char).length)
              (t.drop ((dec s f.lax ch t).n - 1)) (hc _ _ rfl) (by omega) (h.tail.drop _) rfl
            rw [this, Nat.sub_sub, Option.map_map]
            congr 1; funext r; simp [sizeOf, Nat.add_assoc]
      · unfold runSize specRun run
        rw [e2]
        unfold specSize at e1
        unfold specRun specStep at e3
        unfold specStep
        dsimp only
        by_cases c0 : (f.stop && (dec s f.lax ch t).item.isBad) = true
        · rw [if_pos c0] at e1; cases e1
        · rw [if_neg c0] at e1
          rw [if_neg c0]
          by_cases c1 : limit < size + (encode d (dec s f.lax ch t).item.char).length
          · rw [if_pos c1] at e1; cases e1
          · rw [if_neg c1] at e1
            injection e1 with e4 e5
            rw [if_neg (by omega)]
            dsimp only
            rw [dif_pos hd, e5, show limit - size - (encode d (dec s f.lax ch t).item.char).length = 0 by omega]
            rw [show run _ 0 n = _ from e3]
            simp only [Option.map_some, sizeOf, List.append_nil, Option.some.injEq, SR.mk.injEq, and_true]
            omega

/-- The common case: no invariant, every iteration as prescribed. -/
theorem size_of_spec' {s d : Enc} {f : Flags} {limit : Nat} {step : Nat → Nat → List Nat → SStep}
    (hI : ∀ size ch t, size ≤ limit → Units s (ch :: t) →
      step size ch t = specSize d f.stop limit size ch t (dec s f.lax ch t))
    (src : List Nat) (h : Units s src) :
    runSize step 0 src = (specRun s d f limit src).map (sizeOf 0) := by
  have := size_of_spec (s := s) (d := d) (f := f) (limit := limit) (step := step) (fun _ _ => True)
    (fun size ch t _ hl hu => .inl ⟨hI size ch t hl hu, fun _ _ _ => trivial⟩) 0 src trivial (Nat.zero_le _) h
  simpa using this

/-! ## Leaves -/

theorem ss_bad {d : Enc} {stop : Bool} {limit size ch n m : Nat} {t next : List Nat}
    (hs : stop = false) (hm : m = (encode d 0xFFFD).length) (ht : next = t.drop (n - 1)) :
    (if size + m > limit then SStep.ret ⟨size, ch :: t, .insufficient⟩ else .cont (size + m) next) =
      specSize d stop limit size ch t ⟨.bad n, n⟩ := by
  subst hs hm ht; rfl

theorem ss_inv {d : Enc} {stop : Bool} {limit size ch n : Nat} {t : List Nat} (hs : stop = true) :
    SStep.ret ⟨size, ch :: t, .invalid⟩ = specSize d stop limit size ch t ⟨.bad n, n⟩ := by
  subst hs; unfold specSize; simp [Item.isBad]

theorem ss_ch {d : Enc} {stop : Bool} {limit size ch n m c : Nat} {t next : List Nat}
    (hm : m = (encode d c).length) (ht : next = t.drop (n - 1)) :
    (if size + m > limit then SStep.ret ⟨size, ch :: t, .insufficient⟩ else .cont (size + m) next) =
      specSize d stop limit size ch t ⟨.ch c, n⟩ := by
  subst hm ht; cases stop <;> rfl

/-- The check of the limit, the accumulation of the size and the advance. -/
def sok (limit size n : Nat) (seq next : List Nat) : SStep :=
  if size + n > limit then SStep.ret ⟨size, seq, .insufficient⟩ else .cont (size + n) next

theorem sok_eq (limit size n : Nat) (seq next : List Nat) :
    (if size + n > limit then SStep.ret ⟨size, seq, .insufficient⟩ else .cont (size + n) next) =
      sok limit size n seq next := rfl

theorem sok_eq_ge (limit size : Nat) (seq next : List Nat) :
    (if size ≥ limit then SStep.ret ⟨size, seq, .insufficient⟩ else .cont (size + 1) next) =
      sok limit size 1 seq next := by
  unfold sok
  by_cases c : size ≥ limit
  · rw [if_pos c, if_pos (by omega)]
  · rw [if_neg c, if_neg (by omega)]

theorem size8to32Stop {f : Flags} {limit : Nat} (hs : f.stop = true) {size ch : Nat} {t : List Nat} :
    sizeStep8to32Stop f limit size ch t = specSize .utf32 f.stop limit size ch t (dec .utf8 f.lax ch t) := by
  unfold sizeStep8to32Stop
  simp only [dec]
  unfold dec8
  have e : ∀ a : Nat, (a ≥ 0x80) = ¬ (a < 0x80) := fun a => by simp
  simp only [e, sok_eq_ge, ite_not]
  split_ifs
  · exact ss_ch rfl rfl
  · rcases t with _ | ⟨b1, t⟩ <;> dsimp only <;> (try split_ifs) <;>
      first | exact ss_inv hs | exact ss_ch rfl rfl
  · rcases t with _ | ⟨b1, _ | ⟨b2, t⟩⟩ <;> dsimp only <;> (try simp only [ite_and]) <;> (try split_ifs) <;>
      first | exact ss_inv hs | exact ss_ch rfl rfl
  · rcases t with _ | ⟨b1, _ | ⟨b2, t⟩⟩ <;> dsimp only <;> (try simp only [ite_and]) <;> (try split_ifs) <;>
      first | exact ss_inv hs | exact ss_ch rfl rfl
  · rcases t with _ | ⟨b1, _ | ⟨b2, _ | ⟨b3, t⟩⟩⟩ <;> dsimp only <;> (try simp only [ite_and]) <;> (try split_ifs) <;>
      first | exact ss_inv hs | exact ss_ch rfl rfl

theorem sok_bad {d : Enc} {stop : Bool} {limit size ch n m : Nat} {t next : List Nat}
    (hs : stop = false) (hm : m = (encode d 0xFFFD).length) (ht : next = t.drop (n - 1)) :
    sok limit size m (ch :: t) next = specSize d stop limit size ch t ⟨.bad n, n⟩ := ss_bad hs hm ht

theorem sok_ch {d : Enc} {stop : Bool} {limit size ch n m c : Nat} {t next : List Nat}
    (hm : m = (encode d c).length) (ht : next = t.drop (n - 1)) :
    sok limit size m (ch :: t) next = specSize d stop limit size ch t ⟨.ch c, n⟩ := ss_ch hm ht

theorem specSize32_full {stop : Bool} {limit size ch : Nat} {t : List Nat} {k : Tok} (hs : (stop && k.item.isBad) = false)
    (h : size ≥ limit) : specSize .utf32 stop limit size ch t k = .ret ⟨size, ch :: t, .insufficient⟩ := by
  unfold specSize
  rw [if_neg (by simp [hs]), if_pos (by simp [encode]; omega)]

theorem size8to32Cont {f : Flags} {limit : Nat} (hs : f.stop = false) {size ch : Nat} {t : List Nat}
    (h : Units .utf8 (ch :: t)) :
    sizeStep8to32Cont f limit size ch t = specSize .utf32 f.stop limit size ch t (dec .utf8 f.lax ch t) := by
  by_cases c : size ≥ limit
  · rw [specSize32_full (by simp [hs]) c]
    unfold sizeStep8to32Cont; dsimp only; rw [if_pos c]
  · unfold sizeStep8to32Cont
    dsimp only
    rw [if_neg c]
    have e : ∀ next, SStep.cont (size + 1) next = sok limit size 1 (ch :: t) next := by
      intro next; unfold sok; rw [if_neg (by omega)]
    simp only [e, dec]
    have hb : ch < 256 := h ch (by simp)
    unfold dec8
    by_cases c0 : ch < 0x80
    · rw [if_pos c0, if_neg (by rw [andE0_C0 hb]; omega), if_neg (by omega),
        if_neg (by rw [andF0_E0 hb]; omega)]
      have hx := xorF0 hb
      have nv : ∀ b1, ¬ (isCont b1 = true ∧ first2of4Valid (first2of4 ch b1) = true) := by
        intro b1 g
        have h2 := g.2
        rw [first2of4Valid_iff, first2of4_eq] at h2
        have := hx.2 (by omega)
        omega
      rcases t with _ | ⟨b1, t⟩
      · exact sok_ch rfl rfl
      · dsimp only; rw [if_neg (nv b1)]; exact sok_ch rfl rfl
    · rw [if_neg c0]
      split_ifs
      · rcases t with _ | ⟨b1, t⟩ <;> dsimp only <;> (try split_ifs) <;>
          first | exact sok_bad hs rfl rfl | exact sok_ch rfl rfl
      · rcases t with _ | ⟨b1, _ | ⟨b2, t⟩⟩ <;> dsimp only <;> (try split_ifs) <;>
          first | exact sok_bad hs rfl rfl | exact sok_ch rfl rfl
      · rcases t with _ | ⟨b1, _ | ⟨b2, t⟩⟩ <;> dsimp only <;> (try split_ifs) <;>
          first | exact sok_bad hs rfl rfl | exact sok_ch rfl rfl
      · rcases t with _ | ⟨b1, _ | ⟨b2, _ | ⟨b3, t⟩⟩⟩ <;> dsimp only <;> (try split_ifs) <;>
          first | exact sok_bad hs rfl rfl | exact sok_ch rfl rfl

theorem len16_of_8 {lax : Bool} {src : List Nat} {c n : Nat} (ok : TokOk .utf8 lax src ⟨.ch c, n⟩) (h : n ≤ 3) :
    1 = (encode .utf16 c).length := by rw [← tok16_of_8 ok h]; rfl

theorem len16_of_8' {lax : Bool} {src : List Nat} {c : Nat} (ok : TokOk .utf8 lax src ⟨.ch c, 4⟩) :
    2 = (encode .utf16 c).length := by rw [← tok16_of_8' ok]; rfl

theorem size8to16Stop {f : Flags} {limit : Nat} (hs : f.stop = true) {size ch : Nat} {t : List Nat}
    (h : Units .utf8 (ch :: t)) :
    sizeStep8to16Stop f limit size ch t = specSize .utf16 f.stop limit size ch t (dec .utf8 f.lax ch t) := by
  have ok := dec8_ok (lax := f.lax) h
  revert ok
  unfold sizeStep8to16Stop
  simp only [dec]
  unfold dec8
  have e : ∀ a : Nat, (a ≥ 0x80) = ¬ (a < 0x80) := fun a => by simp
  simp only [e, sok_eq, ite_not, Nat.add_sub_cancel]
  split_ifs
  · intro ok; exact sok_ch (len16_of_8 ok (by decide)) rfl
  · rcases t with _ | ⟨b1, t⟩ <;> dsimp only <;> (try split_ifs) <;> intro ok <;>
      first | exact ss_inv hs | exact sok_ch (len16_of_8 ok (by decide)) rfl
  · rcases t with _ | ⟨b1, _ | ⟨b2, t⟩⟩ <;> dsimp only <;> (try simp only [ite_and]) <;> (try split_ifs) <;> intro ok <;>
      first | exact ss_inv hs | exact sok_ch (len16_of_8 ok (by decide)) rfl
  · rcases t with _ | ⟨b1, _ | ⟨b2, t⟩⟩ <;> dsimp only <;> (try simp only [ite_and]) <;> (try split_ifs) <;> intro ok <;>
      first | exact ss_inv hs | exact sok_ch (len16_of_8 ok (by decide)) rfl
  · rcases t with _ | ⟨b1, _ | ⟨b2, _ | ⟨b3, t⟩⟩⟩ <;> dsimp only <;> (try simp only [ite_and]) <;> (try split_ifs) <;> intro ok <;>
      first | exact ss_inv hs | exact sok_ch (len16_of_8' ok) rfl

theorem size8to16Cont {f : Flags} {limit : Nat} (hs : f.stop = false) {size ch : Nat} {t : List Nat}
    (h : Units .utf8 (ch :: t)) :
    sizeStep8to16Cont f limit size ch t = specSize .utf16 f.stop limit size ch t (dec .utf8 f.lax ch t) := by
  have ok := dec8_ok (lax := f.lax) h
  revert ok
  unfold sizeStep8to16Cont
  simp only [dec, sok_eq]
  have hb : ch < 256 := h ch (by simp)
  unfold dec8
  by_cases c0 : ch < 0x80
  · rw [if_pos c0, if_neg (by rw [andE0_C0 hb]; omega), if_neg (by omega),
      if_neg (by rw [andF0_E0 hb]; omega)]
    have hx := xorF0 hb
    have nv : ∀ b1, ¬ (isCont b1 = true ∧ first2of4Valid (first2of4 ch b1) = true) := by
      intro b1 g
      have h2 := g.2
      rw [first2of4Valid_iff, first2of4_eq] at h2
      have := hx.2 (by omega)
      omega
    intro ok
    rcases t with _ | ⟨b1, t⟩
    · exact sok_ch (len16_of_8 ok (by decide)) rfl
    · dsimp only; rw [if_neg (nv b1)]; exact sok_ch (len16_of_8 ok (by decide)) rfl
  · rw [if_neg c0]
    split_ifs
    · rcases t with _ | ⟨b1, t⟩ <;> dsimp only <;> (try split_ifs) <;> intro ok <;>
        first | exact sok_bad hs rfl rfl | exact sok_ch (len16_of_8 ok (by decide)) rfl
    · rcases t with _ | ⟨b1, _ | ⟨b2, t⟩⟩ <;> dsimp only <;> (try split_ifs) <;> intro ok <;>
        first | exact sok_bad hs rfl rfl | exact sok_ch (len16_of_8 ok (by decide)) rfl
    · rcases t with _ | ⟨b1, _ | ⟨b2, t⟩⟩ <;> dsimp only <;> (try split_ifs) <;> intro ok <;>
        first | exact sok_bad hs rfl rfl | exact sok_ch (len16_of_8 ok (by decide)) rfl
    · rcases t with _ | ⟨b1, _ | ⟨b2, _ | ⟨b3, t⟩⟩⟩ <;> dsimp only <;> (try split_ifs) <;> intro ok <;>
        first | exact sok_bad hs rfl rfl | exact sok_ch (len16_of_8' ok) rfl

/-- In the same-encoding transcoders sizes are pointer differences. -/
theorem sok_pos {limit total size n : Nat} {seq next : List Nat} (hi : size + seq.length = total)
    (hn : next.length + n = seq.length) :
    (if total - next.length > (if total ≥ limit then limit else total) then
      SStep.ret ⟨total - seq.length, seq, .insufficient⟩ else .cont (total - next.length) next) =
      sok limit size n seq next := by
  have e1 : total - seq.length = size := by omega
  have e2 : total - next.length = size + n := by omega
  rw [e1, e2]
  unfold sok
  split_ifs <;> first | rfl | omega

theorem size8to8Stop {f : Flags} {limit total : Nat} (hs : f.stop = true) {size ch : Nat} {t : List Nat}
    (h : Units .utf8 (ch :: t)) (hi : size + (ch :: t).length = total) :
    sizeStep8to8Stop f limit total size ch t = specSize .utf8 f.stop limit size ch t (dec .utf8 f.lax ch t) := by
  have ok := dec8_ok (lax := f.lax) h
  revert ok
  unfold sizeStep8to8Stop
  have e : ∀ a : Nat, (a ≥ 0x80) = ¬ (a < 0x80) := fun a => by simp
  have e1 : total - (ch :: t).length = size := by omega
  obtain ⟨ok', hok⟩ : ∃ ok' : List Nat → SStep, ok' = fun next =>
    if total - next.length > (if total ≥ limit then limit else total) then
      SStep.ret ⟨total - (ch :: t).length, ch :: t, .insufficient⟩ else .cont (total - next.length) next := ⟨_, rfl⟩
  have hok' : ∀ n next, next.length + n = (ch :: t).length → ok' next = sok limit size n (ch :: t) next := by
    intro n next hn; rw [hok]; exact sok_pos hi hn
  dsimp only
  simp only [← congrFun hok]
  rw [e1]
  clear hok
  simp only [dec]
  unfold dec8
  simp only [e, ite_not]
  have key : ∀ {c n : Nat} {next : List Nat}, TokOk .utf8 f.lax (ch :: t) ⟨.ch c, n⟩ → 1 ≤ n →
      next = t.drop (n - 1) →
      ok' next = specSize .utf8 f.stop limit size ch t ⟨.ch c, n⟩ := by
    intro c n next ok h1 h2
    rw [hok' n next ?_]
    · exact sok_ch ok.1 h2
    · have := ok.n_le
      rw [h2, List.length_drop]; simp only [List.length_cons] at this ⊢; omega
  split_ifs
  · intro ok; exact key ok (by decide) rfl
  · rcases t with _ | ⟨b1, t⟩ <;> dsimp only <;> (try split_ifs) <;> intro ok <;>
      first | exact ss_inv hs | exact key ok (by decide) rfl
  · rcases t with _ | ⟨b1, _ | ⟨b2, t⟩⟩ <;> dsimp only <;> (try simp only [ite_and]) <;> (try split_ifs) <;> intro ok <;>
      first | exact ss_inv hs | exact key ok (by decide) rfl
  · rcases t with _ | ⟨b1, _ | ⟨b2, t⟩⟩ <;> dsimp only <;> (try simp only [ite_and]) <;> (try split_ifs) <;> intro ok <;>
      first | exact ss_inv hs | exact key ok (by decide) rfl
  · rcases t with _ | ⟨b1, _ | ⟨b2, _ | ⟨b3, t⟩⟩⟩ <;> dsimp only <;> (try simp only [ite_and]) <;> (try split_ifs) <;> intro ok <;>
      first | exact ss_inv hs | exact key ok (by decide) rfl

theorem size8to8Cont {f : Flags} {limit : Nat} (hs : f.stop = false) {size ch : Nat} {t : List Nat}
    (h : Units .utf8 (ch :: t)) :
    sizeStep8to8Cont f (limit + 1) size ch t = specSize .utf8 f.stop limit size ch t (dec .utf8 f.lax ch t) := by
  have ok := dec8_ok (lax := f.lax) h
  revert ok
  unfold sizeStep8to8Cont
  have e : ∀ n next, (if size + n ≥ limit + 1 then SStep.ret ⟨size, ch :: t, .insufficient⟩
      else .cont (size + n) next) = sok limit size n (ch :: t) next := fun _ _ => rfl
  simp only [dec, e]
  unfold dec8
  split_ifs
  · intro ok; exact sok_ch ok.1 rfl
  · rcases t with _ | ⟨b1, t⟩ <;> dsimp only <;> (try split_ifs) <;> intro ok <;>
      first | exact sok_bad hs rfl rfl | exact sok_ch ok.1 rfl
  · rcases t with _ | ⟨b1, _ | ⟨b2, t⟩⟩ <;> dsimp only <;> (try split_ifs) <;> intro ok <;>
      first | exact sok_bad hs rfl rfl | exact sok_ch ok.1 rfl
  · rcases t with _ | ⟨b1, _ | ⟨b2, t⟩⟩ <;> dsimp only <;> (try split_ifs) <;> intro ok <;>
      first | exact sok_bad hs rfl rfl | exact sok_ch ok.1 rfl
  · rcases t with _ | ⟨b1, _ | ⟨b2, _ | ⟨b3, t⟩⟩⟩ <;> dsimp only <;> (try split_ifs) <;> intro ok <;>
      first | exact sok_bad hs rfl rfl | exact sok_ch ok.1 rfl

/-! ## From UTF-16 -/

theorem isHigh_isSurrogate {c : Nat} (h : isHigh c = true) : isSurrogate c = true := by
  rw [isHigh_iff] at h; rw [isSurrogate_iff]; unfold IsSurr; omega

theorem size16to32Cont {f : Flags} {limit : Nat} (hs : f.lax = true ∨ f.stop = false) {size ch : Nat} {t : List Nat} :
    sizeStep16to32Cont limit size ch t = specSize .utf32 f.stop limit size ch t (dec .utf16 f.lax ch t) := by
  have hb : (f.stop && (dec .utf16 f.lax ch t).item.isBad) = false := by
    rcases hs with hs | hs
    · rw [hs]; simp only [dec]; unfold dec16
      rcases t with _ | ⟨b1, t⟩ <;> dsimp only <;> split_ifs <;> simp_all [Item.isBad]
    · rw [hs]; rfl
  by_cases c : size ≥ limit
  · rw [specSize32_full hb c]
    unfold sizeStep16to32Cont; rw [if_pos c]
  · unfold sizeStep16to32Cont
    rw [if_neg c]
    have e : ∀ next, SStep.cont (size + 1) next = sok limit size 1 (ch :: t) next := by
      intro next; unfold sok; rw [if_neg (by omega)]
    simp only [e]
    revert hb
    simp only [dec]
    unfold dec16
    dsimp only
    have ih := @isHigh_isSurrogate ch
    rcases t with _ | ⟨b1, t⟩ <;> dsimp only <;> split_ifs <;> intro hb <;>
      first
      | exact sok_ch rfl rfl
      | (refine sok_bad ?_ rfl rfl; simpa [Item.isBad] using hb)
      | simp_all

theorem size16to32Stop {f : Flags} {limit : Nat} (hl : f.lax = false) (hs : f.stop = true) {size ch : Nat} {t : List Nat} :
    sizeStep16to32Stop limit size ch t = specSize .utf32 f.stop limit size ch t (dec .utf16 f.lax ch t) := by
  unfold sizeStep16to32Stop
  simp only [dec, hl]
  unfold dec16
  dsimp only
  simp only [sok_eq_ge, Bool.not_false, if_true]
  rcases t with _ | ⟨b1, t⟩ <;> dsimp only <;> split_ifs <;>
    first | exact ss_inv hs | exact sok_ch rfl rfl

theorem size16to16 {f : Flags} {limit total : Nat} {size ch : Nat} {t : List Nat}
    (h : Units .utf16 (ch :: t)) (hi : size + (ch :: t).length = total) :
    sizeStep16to16 (decide (total > limit)) (!f.lax && f.stop) limit total size ch t =
      specSize .utf16 f.stop limit size ch t (dec .utf16 f.lax ch t) := by
  have h0 : ch < 0x10000 := h ch (by simp)
  have e1 : total - (ch :: t).length = size := by omega
  have ok := dec16_ok (lax := f.lax) h
  revert ok
  unfold sizeStep16to16
  obtain ⟨ok', hok⟩ : ∃ ok' : List Nat → SStep, ok' = fun next =>
    if decide (total > limit) = true ∧ total - next.length > (if total ≥ limit then limit else total) then
      SStep.ret ⟨total - (ch :: t).length, ch :: t, .insufficient⟩ else .cont (total - next.length) next := ⟨_, rfl⟩
  have hok' : ∀ n next, next.length + n = (ch :: t).length → ok' next = sok limit size n (ch :: t) next := by
    intro n next hn; rw [hok, ← sok_pos (limit := limit) hi hn]
    dsimp only
    by_cases c : total > limit
    · simp [c]
    · simp only [c, decide_false, Bool.false_eq_true, false_and, if_false]
      rw [if_neg (by split_ifs <;> omega)]
  dsimp only
  simp only [← congrFun hok]
  rw [e1]
  clear hok
  simp only [dec]
  unfold dec16
  dsimp only
  have k1 : ∀ stop, ok' t = specSize .utf16 stop limit size ch t ⟨.ch ch, 1⟩ := by
    intro stop
    rw [hok' 1 t (by simp)]; exact sok_ch (by rw [enc16_bmp h0]; rfl) rfl
  have k2 : ok' t = specSize .utf16 false limit size ch t ⟨.bad 1, 1⟩ := by
    rw [hok' 1 t (by simp)]; exact sok_bad rfl rfl rfl
  have k3 : specSize .utf16 true limit size ch t ⟨.bad 1, 1⟩ = SStep.ret ⟨size, ch :: t, .invalid⟩ :=
    (ss_inv rfl).symm
  have lone : (if (!f.lax && f.stop) = true then SStep.ret ⟨size, ch :: t, .invalid⟩ else ok' t) =
      specSize .utf16 f.stop limit size ch t (if (!f.lax) = true then ⟨.bad 1, 1⟩ else ⟨.ch ch, 1⟩) := by
    cases f.lax <;> cases f.stop
    · exact k2
    · exact k3.symm
    · exact k1 _
    · exact k1 _
  rw [lone]
  rcases t with _ | ⟨b1, t⟩
  · dsimp only
    intro _
    by_cases c : isSurrogate ch = true
    · rw [if_pos c, if_pos c]
    · rw [if_neg c, if_neg c]; exact k1 _
  · dsimp only
    by_cases c : isSurrogate ch = true
    · rw [if_pos c, if_pos c]
      by_cases c2 : isHigh ch = true ∧ isLow b1 = true
      · rw [if_pos c2, if_pos c2]
        intro ok
        rw [hok' 2 t (by simp)]; exact sok_ch ok.1 rfl
      · rw [if_neg c2, if_neg c2]; intro _; rfl
    · rw [if_neg c, if_neg c]; intro _; exact k1 _

theorem len8_2 {c : Nat} (h : ¬ c < 0x80) (h2 : c < 0x800) : 2 = (encode .utf8 c).length := by
  simp only [encode]; rw [if_neg h, if_pos h2]; rfl
theorem len8_3 {c : Nat} (h : ¬ c < 0x800) (h2 : c < 0x10000) : 3 = (encode .utf8 c).length := by
  simp only [encode]; rw [if_neg (by omega), if_neg h, if_pos h2]; rfl
theorem len8_4 {c : Nat} (h : ¬ c < 0x10000) : 4 = (encode .utf8 c).length := by
  simp only [encode]; rw [if_neg (by omega), if_neg (by omega), if_neg h]; rfl
theorem len8_1 {c : Nat} (h : c < 0x80) : 1 = (encode .utf8 c).length := by
  simp only [encode]; rw [if_pos h]; rfl

theorem fromPair_big (a b : Nat) : ¬ fromPair a b < 0x10000 := by rw [fromPair_eq]; omega

theorem size16to8Stop {f : Flags} {limit : Nat} (hl : f.lax = false) (hs : f.stop = true) {size ch : Nat} {t : List Nat}
    (h : Units .utf16 (ch :: t)) :
    sizeStep16to8Stop limit size ch t = specSize .utf8 f.stop limit size ch t (dec .utf16 f.lax ch t) := by
  have h0 : ch < 0x10000 := h ch (by simp)
  have ns : ch < 0x800 → isSurrogate ch = false := fun g => notSurr_of (by omega)
  unfold sizeStep16to8Stop
  simp only [dec, hl, sok_eq]
  unfold dec16
  dsimp only
  simp only [Bool.not_false, if_true]
  by_cases c0 : ch < 0x80
  · rw [if_pos c0, if_neg (by simp [ns (show ch < 0x800 by omega)])]
    exact sok_ch (len8_1 c0) rfl
  rw [if_neg c0]
  by_cases c1 : ch < 0x800
  · rw [if_pos c1, if_neg (by simp [ns c1])]
    exact sok_ch (len8_2 c0 c1) rfl
  rw [if_neg c1]
  rcases t with _ | ⟨b1, t⟩ <;> dsimp only <;> split_ifs <;>
    first | exact ss_inv hs | exact sok_ch (len8_3 c1 h0) rfl | exact sok_ch (len8_4 (fromPair_big _ _)) rfl

/-- utf16 → utf8 when not stopping: also returns early when the limit is reached exactly. -/
def goCont (limit size n : Nat) (seq next : List Nat) : SStep :=
  if size + n ≥ limit then
    if size + n > limit then SStep.ret ⟨size, seq, .insufficient⟩
    else if next ≠ [] then .ret ⟨size + n, next, .insufficient⟩
    else .ret ⟨size + n, [], .completed⟩
  else .cont (size + n) next

theorem goCont_alt {limit size n : Nat} {seq next : List Nat} :
    goCont limit size n seq next = sok limit size n seq next ∨
    (sok limit size n seq next = .cont limit next ∧
      goCont limit size n seq next = .ret ⟨limit, next, if next ≠ [] then .insufficient else .completed⟩) := by
  unfold goCont sok
  by_cases c : size + n ≥ limit
  · rw [if_pos c]
    by_cases c2 : size + n > limit
    · rw [if_pos c2, if_pos c2]; exact .inl rfl
    · rw [if_neg c2, if_neg c2]
      have : size + n = limit := by omega
      right
      rw [this]
      refine ⟨rfl, ?_⟩
      split_ifs with h
      · rfl
      · simp only [ne_eq, Decidable.not_not] at h; rw [h]
  · rw [if_neg c, if_neg (by omega)]; exact .inl rfl

/-- Which token is met, and the size the code attributes to it. -/
theorem size16to8Cont_go {f : Flags} {limit : Nat} (hs : f.lax = true ∨ f.stop = false) {size ch : Nat} {t : List Nat}
    (h : Units .utf16 (ch :: t)) :
    ∃ n next, sizeStep16to8Cont limit size ch t = goCont limit size n (ch :: t) next ∧
      specSize .utf8 f.stop limit size ch t (dec .utf16 f.lax ch t) = sok limit size n (ch :: t) next := by
  have h0 : ch < 0x10000 := h ch (by simp)
  have ns : ch < 0x800 → isSurrogate ch = false := fun g => notSurr_of (by omega)
  have ih := @isHigh_isSurrogate ch
  unfold sizeStep16to8Cont
  simp only [dec]
  unfold dec16
  dsimp only
  by_cases c0 : ch < 0x80
  · rw [if_pos c0, if_neg (c := isSurrogate ch = true) (by simp [ns (show ch < 0x800 by omega)])]
    exact ⟨1, t, rfl, (sok_ch (len8_1 c0) rfl).symm⟩
  rw [if_neg c0]
  by_cases c1 : ch < 0x800
  · rw [if_pos c1, if_neg (c := isSurrogate ch = true) (by simp [ns c1])]
    exact ⟨2, t, rfl, (sok_ch (len8_2 c0 c1) rfl).symm⟩
  rw [if_neg c1]
  have lone : specSize .utf8 f.stop limit size ch t (if (!f.lax) = true then ⟨.bad 1, 1⟩ else ⟨.ch ch, 1⟩) =
      sok limit size 3 (ch :: t) t := by
    by_cases c : (!f.lax) = true
    · rw [if_pos c]
      refine (sok_bad ?_ (by decide) rfl).symm
      rcases hs with hs | hs
      · simp [hs] at c
      · exact hs
    · rw [if_neg c]; exact (sok_ch (len8_3 c1 h0) rfl).symm
  rcases t with _ | ⟨b1, t⟩
  · dsimp only
    refine ⟨3, [], rfl, ?_⟩
    by_cases c : isSurrogate ch = true
    · rw [if_pos c]; exact lone
    · rw [if_neg c]; exact (sok_ch (len8_3 c1 h0) rfl).symm
  · dsimp only
    by_cases c2 : isHigh ch = true ∧ isLow b1 = true
    · rw [if_pos c2, if_pos (ih c2.1), if_pos c2]
      exact ⟨4, t, rfl, (sok_ch (len8_4 (fromPair_big _ _)) rfl).symm⟩
    · rw [if_neg c2, if_neg c2]
      refine ⟨3, b1 :: t, rfl, ?_⟩
      by_cases c : isSurrogate ch = true
      · rw [if_pos c]; exact lone
      · rw [if_neg c]; exact (sok_ch (len8_3 c1 h0) rfl).symm

/-! ## From UTF-32 -/

theorem size32to8 {f : Flags} {limit : Nat} {sl : Bool} {size ch : Nat} {t : List Nat}
    (hi : sl = false → size + 4 * (ch :: t).length ≤ limit) :
    sizeStep32to8 sl f.stop (!f.lax) limit size ch t =
      specSize .utf8 f.stop limit size ch t (dec .utf32 f.lax ch t) := by
  simp only [List.length_cons] at hi
  have e : ∀ n, n ≤ 4 → (if (sl && decide (size + n > limit)) = true then
      SStep.ret ⟨size + n - n, ch :: t, .insufficient⟩ else .cont (size + n) t) = sok limit size n (ch :: t) t := by
    intro n hn
    unfold sok
    rw [Nat.add_sub_cancel]
    cases sl
    · have := hi rfl
      rw [if_neg (by simp), if_neg (by omega)]
    · simp
  unfold sizeStep32to8
  simp only [dec]
  by_cases c : ((!f.lax && isSurrogate ch) || decide (ch ≥ 0x110000)) = true
  · rw [c, dec32_bad (by simpa [or_comm] using c)]
    simp only [Bool.and_true, if_true]
    rw [e 3 (by decide)]
    by_cases hs : f.stop = true
    · rw [if_pos hs]; exact ss_inv hs
    · rw [if_neg hs]; exact sok_bad (by simpa using hs) (by decide) rfl
  · have c' := c
    simp only [Bool.or_eq_true, decide_eq_true_eq, not_or, Bool.and_eq_true, not_and, Bool.not_eq_true] at c'
    rw [Bool.not_eq_true] at c
    rw [c, dec32_ch (by omega) ?_]
    · simp only [Bool.and_false, Bool.false_eq_true, if_false]
      by_cases c0 : ch < 0x80
      · simp only [show ¬ ch ≥ 0x80 by omega, show ¬ ch ≥ 0x800 by omega, show ¬ ch ≥ 0x10000 by omega, if_false]
        rw [e _ (by decide)]; exact sok_ch (len8_1 c0) rfl
      · by_cases c1 : ch < 0x800
        · simp only [show ch ≥ 0x80 by omega, show ¬ ch ≥ 0x800 by omega, show ¬ ch ≥ 0x10000 by omega, if_false, if_true]
          rw [e _ (by decide)]; exact sok_ch (len8_2 c0 c1) rfl
        · by_cases c2 : ch < 0x10000
          · simp only [show ch ≥ 0x80 by omega, show ch ≥ 0x800 by omega, show ¬ ch ≥ 0x10000 by omega, if_false, if_true]
            rw [e _ (by decide)]; exact sok_ch (len8_3 c1 c2) rfl
          · simp only [show ch ≥ 0x80 by omega, show ch ≥ 0x800 by omega, show ch ≥ 0x10000 by omega, if_true]
            rw [e _ (by decide)]; exact sok_ch (len8_4 c2) rfl
    · cases hl : f.lax
      · exact .inr (c'.1 (by simp [hl]))
      · exact .inl rfl

theorem size32to16 {f : Flags} {limit : Nat} {sl : Bool} {size ch : Nat} {t : List Nat}
    (hi : sl = false → size + 2 * (ch :: t).length ≤ limit) :
    sizeStep32to16 sl f.stop (!f.lax) limit size ch t =
      specSize .utf16 f.stop limit size ch t (dec .utf32 f.lax ch t) := by
  simp only [List.length_cons] at hi
  have e : ∀ n, n ≤ 2 → (if (sl && decide (size + n > limit)) = true then
      SStep.ret ⟨size + n - n, ch :: t, .insufficient⟩ else .cont (size + n) t) = sok limit size n (ch :: t) t := by
    intro n hn
    unfold sok
    rw [Nat.add_sub_cancel]
    cases sl
    · have := hi rfl
      rw [if_neg (by simp), if_neg (by omega)]
    · simp
  unfold sizeStep32to16
  simp only [dec]
  by_cases c : ((!f.lax && isSurrogate ch) || decide (ch ≥ 0x110000)) = true
  · rw [c, dec32_bad (by simpa [or_comm] using c)]
    simp only [Bool.and_true, if_true]
    rw [e 1 (by decide)]
    by_cases hs : f.stop = true
    · rw [if_pos hs]; exact ss_inv hs
    · rw [if_neg hs]; exact sok_bad (by simpa using hs) (by decide) rfl
  · have c' := c
    simp only [Bool.or_eq_true, decide_eq_true_eq, not_or, Bool.and_eq_true, not_and, Bool.not_eq_true] at c'
    rw [Bool.not_eq_true] at c
    rw [c, dec32_ch (by omega) ?_]
    · simp only [Bool.and_false, Bool.false_eq_true, if_false]
      by_cases c2 : ch < 0x10000
      · rw [if_pos c2, e _ (by decide)]; exact sok_ch (by rw [enc16_bmp c2]; rfl) rfl
      · rw [if_neg c2, e _ (by decide)]
        refine sok_ch ?_ rfl
        simp only [encode]; rw [if_neg c2]; rfl
    · cases hl : f.lax
      · exact .inr (c'.1 (by simp [hl]))
      · exact .inl rfl

theorem size32to32 {f : Flags} {signed : Bool} (hs : f.stop = true) {limit : Nat} {sl : Bool} {size ch : Nat} {t : List Nat}
    (hsg : signed = false ∨ ch < 0x80000000)
    (hi : sl = false → size + (ch :: t).length ≤ limit) :
    sizeStep32to32 signed sl (!f.lax) limit size ch t =
      specSize .utf32 f.stop limit size ch t (dec .utf32 f.lax ch t) := by
  simp only [List.length_cons] at hi
  have e : (if (sl && decide (size ≥ limit)) = true then
      SStep.ret ⟨size, ch :: t, .insufficient⟩ else .cont (size + 1) t) = sok limit size 1 (ch :: t) t := by
    unfold sok
    cases sl
    · have := hi rfl
      rw [if_neg (by simp), if_neg (by omega)]
    · simp only [Bool.true_and, decide_eq_true_eq]; exact sok_eq_ge _ _ _ _
  have tb : tooBig signed ch = decide (ch ≥ 0x110000) := by
    unfold tooBig; rw [if_neg]; simp only [Bool.and_eq_true, decide_eq_true_eq]
    rintro ⟨g1, g2⟩
    rcases hsg with g | g
    · rw [g1] at g; cases g
    · omega
  unfold sizeStep32to32
  simp only [dec, tb, e]
  by_cases c : (decide (ch ≥ 0x110000) || (!f.lax && isSurrogate ch)) = true
  · rw [if_pos c, dec32_bad (by simpa using c)]; exact ss_inv hs
  · rw [if_neg c, dec32_ch]
    · exact sok_ch rfl rfl
    · simp only [Bool.or_eq_true, decide_eq_true_eq, not_or] at c; omega
    · simp only [Bool.or_eq_true, decide_eq_true_eq, not_or, Bool.and_eq_true, not_and, Bool.not_eq_true] at c
      cases hl : f.lax
      · exact .inr (c.2 (by simp [hl]))
      · exact .inl rfl

/-! ## The whole functions -/

theorem specRun_zero {s d : Enc} {f : Flags} {src : List Nat} (h : Units s src)
    (hs : ∀ ch t, src = ch :: t → (f.stop && (dec s f.lax ch t).item.isBad) = false) :
    ∃ notes, specRun s d f 0 src = some ⟨src, [], if src ≠ [] then .insufficient else .completed, notes⟩ := by
  rcases src with _ | ⟨ch, t⟩
  · exact ⟨[], by unfold specRun run; rfl⟩
  · unfold specRun run specStep
    dsimp only
    rw [hs ch t rfl, if_neg (by simp), if_pos (encode_pos _ _)]
    exact ⟨_, rfl⟩

/-- For all pairs but UTF-8 to UTF-8 without the stop flag, and UTF-32 to UTF-32 with signed units. -/
theorem transcodeSize_spec {signed : Bool} {s d : Enc} {f : Flags} {limit : Nat} {src : List Nat} (h : Units s src)
    (h88 : s = .utf8 → d = .utf8 → f.stop = true)
    (h33 : s = .utf32 → d = .utf32 → f.stop = true → signed = true → ∀ u ∈ src, u < 0x80000000) :
    transcodeSize signed s d f limit src = (specRun s d f limit src).map (sizeOf 0) := by
  cases s <;> cases d
  · -- 8 to 8
    have hs := h88 rfl rfl
    show (if f.stop then _ else _) = _
    rw [if_pos hs]
    have := size_of_spec (s := .utf8) (d := .utf8) (f := f) (limit := limit)
      (step := sizeStep8to8Stop f limit src.length) (fun size seq => size + seq.length = src.length)
      (fun size ch t hi hl hu => .inl ⟨size8to8Stop hs hu hi, ?_⟩) 0 src (by simp) (Nat.zero_le _) h
    · simpa using this
    · intro s' n e
      rw [size8to8Stop hs hu hi] at e
      unfold specSize at e
      have ok := dec_ok (lax := f.lax) hu
      have hp := ok.n_pos
      have hle := ok.n_le
      split_ifs at e with c1 c2
      injection e with e1 e2
      have hb : (dec .utf8 f.lax ch t).item.isBad = false := by simpa [hs] using c1
      have hn : (dec .utf8 f.lax ch t).n = (encode .utf8 (dec .utf8 f.lax ch t).item.char).length := by
        revert hb ok
        generalize dec .utf8 f.lax ch t = k
        obtain ⟨i, n⟩ := k
        cases i
        · intro ok _; exact ok.1
        · intro _ hb; cases hb
      simp only [List.length_cons] at hle
      simp only [List.length_cons] at hi
      rw [← e1, ← e2, List.length_drop]
      omega
  · show (if f.stop then _ else _) = _
    by_cases hs : f.stop = true
    · rw [if_pos hs]; exact size_of_spec' (fun _ _ _ _ hu => size8to16Stop hs hu) src h
    · rw [if_neg hs]; exact size_of_spec' (fun _ _ _ _ hu => size8to16Cont (by simpa using hs) hu) src h
  · show (if f.stop then _ else _) = _
    by_cases hs : f.stop = true
    · rw [if_pos hs]; exact size_of_spec' (fun _ _ _ _ hu => size8to32Stop hs) src h
    · rw [if_neg hs]; exact size_of_spec' (fun _ _ _ _ hu => size8to32Cont (by simpa using hs) hu) src h
  · -- 16 to 8
    show (if (!f.lax && f.stop) then _ else _) = _
    by_cases hs : (!f.lax && f.stop) = true
    · rw [if_pos hs]
      have hs' : f.lax = false ∧ f.stop = true := by simpa using hs
      exact size_of_spec' (fun _ _ _ _ hu => size16to8Stop hs'.1 hs'.2 hu) src h
    · rw [if_neg hs]
      have hs' : f.lax = true ∨ f.stop = false := by
        cases hl : f.lax <;> cases hst : f.stop <;> simp_all
      have := size_of_spec (s := .utf16) (d := .utf8) (f := f) (limit := limit)
        (step := sizeStep16to8Cont limit) (fun _ _ => True)
        (fun size ch t hi hl hu => ?_) 0 src trivial (Nat.zero_le _) h
      · simpa using this
      · obtain ⟨n, next, e1, e2⟩ := size16to8Cont_go (limit := limit) (size := size) hs' hu
        rcases goCont_alt (limit := limit) (size := size) (n := n) (seq := ch :: t) (next := next) with g | ⟨g1, g2⟩
        · exact .inl ⟨by rw [e1, e2, g], fun _ _ _ => trivial⟩
        · right
          rw [g1] at e2
          have hnx : Units .utf16 next := by
            unfold specSize at e2
            split_ifs at e2
            injection e2 with _ e2
            rw [← e2]; exact hu.tail.drop _
          obtain ⟨notes, hz⟩ := specRun_zero (s := .utf16) (d := .utf8) (f := f) hnx (by
            intro ch' t' _
            rcases hs' with hs' | hs'
            · rw [hs']; simp only [dec]; unfold dec16
              rcases t' with _ | ⟨b1, t'⟩ <;> dsimp only <;> split_ifs <;> simp_all [Item.isBad]
            · rw [hs']; rfl)
          exact ⟨next, _, notes, e2, e1.trans g2, hz⟩
  · -- 16 to 16
    show runSize (sizeStep16to16 _ _ _ _) 0 src = _
    have key : ∀ size ch t, size + (ch :: t).length = src.length → Units .utf16 (ch :: t) → _ :=
      fun size ch t hi hu => size16to16 (f := f) (limit := limit) (size := size) (ch := ch) (t := t) hu hi
    have := size_of_spec (s := .utf16) (d := .utf16) (f := f) (limit := limit)
      (step := sizeStep16to16 (decide (src.length > limit)) (!f.lax && f.stop) limit src.length)
      (fun size seq => size + seq.length = src.length)
      (fun size ch t hi hl hu => .inl ⟨key size ch t hi hu, ?_⟩) 0 src (by simp) (Nat.zero_le _) h
    · simpa using this
    · intro s' n e
      rw [key size ch t hi hu] at e
      unfold specSize at e
      have ok := dec_ok (lax := f.lax) hu
      have hp := ok.n_pos
      have hle := ok.n_le
      split_ifs at e with c1 c2
      injection e with e1 e2
      have hn : (dec .utf16 f.lax ch t).n = (encode .utf16 (dec .utf16 f.lax ch t).item.char).length := by
        revert ok
        simp only [dec]; unfold dec16
        rcases t with _ | ⟨b1, t⟩ <;> dsimp only <;> split_ifs <;> intro ok <;>
          first | exact ok.1 | decide
      simp only [List.length_cons] at hle
      simp only [List.length_cons] at hi
      rw [← e1, ← e2, List.length_drop]
      omega
  · show (if (!f.lax && f.stop) then _ else _) = _
    by_cases hs : (!f.lax && f.stop) = true
    · rw [if_pos hs]
      have hs' : f.lax = false ∧ f.stop = true := by simpa using hs
      exact size_of_spec' (fun _ _ _ _ hu => size16to32Stop hs'.1 hs'.2) src h
    · rw [if_neg hs]
      have hs' : f.lax = true ∨ f.stop = false := by
        cases hl : f.lax <;> cases hst : f.stop <;> simp_all
      exact size_of_spec' (fun _ _ _ _ hu => size16to32Cont hs') src h
  · -- 32 to 8
    show runSize (sizeStep32to8 _ _ _ _) 0 src = _
    have := size_of_spec (s := .utf32) (d := .utf8) (f := f) (limit := limit)
      (step := sizeStep32to8 (decide (src.length * 4 > limit)) f.stop (!f.lax) limit)
      (fun size seq => ¬ src.length * 4 > limit → size + 4 * seq.length ≤ limit)
      (fun size ch t hi hl hu => .inl ⟨size32to8 (by simpa using hi), ?_⟩) 0 src (by omega) (Nat.zero_le _) h
    · simpa using this
    · intro s' n e g
      have := hi g
      rw [size32to8 (by simpa using hi)] at e
      unfold specSize at e
      split_ifs at e with c1 c2
      injection e with e1 e2
      have hn : (dec .utf32 f.lax ch t).n = 1 := by simp only [dec]; unfold dec32; split_ifs <;> rfl
      have h4 : ∀ c, (encode .utf8 c).length ≤ 4 := by
        intro c; simp only [encode]; split_ifs <;> simp
      have := h4 (dec .utf32 f.lax ch t).item.char
      rw [hn] at e2
      simp only [Nat.sub_self, List.drop_zero] at e2
      simp only [List.length_cons] at *
      rw [← e1, ← e2]; omega
  · -- 32 to 16
    show runSize (sizeStep32to16 _ _ _ _) 0 src = _
    have := size_of_spec (s := .utf32) (d := .utf16) (f := f) (limit := limit)
      (step := sizeStep32to16 (decide (src.length * 2 > limit)) f.stop (!f.lax) limit)
      (fun size seq => ¬ src.length * 2 > limit → size + 2 * seq.length ≤ limit)
      (fun size ch t hi hl hu => .inl ⟨size32to16 (by simpa using hi), ?_⟩) 0 src (by omega) (Nat.zero_le _) h
    · simpa using this
    · intro s' n e g
      have := hi g
      rw [size32to16 (by simpa using hi)] at e
      unfold specSize at e
      split_ifs at e with c1 c2
      injection e with e1 e2
      have hn : (dec .utf32 f.lax ch t).n = 1 := by simp only [dec]; unfold dec32; split_ifs <;> rfl
      have h4 : ∀ c, (encode .utf16 c).length ≤ 2 := by
        intro c; simp only [encode]; split_ifs <;> simp
      have := h4 (dec .utf32 f.lax ch t).item.char
      rw [hn] at e2
      simp only [Nat.sub_self, List.drop_zero] at e2
      simp only [List.length_cons] at *
      rw [← e1, ← e2]; omega
  · -- 32 to 32
    have hn : ∀ ch t, (dec .utf32 f.lax ch t).n = 1 := by
      intro ch t; simp only [dec]; unfold dec32; split_ifs <;> rfl
    show transcodeSize32to32 signed f limit src = _
    unfold transcodeSize32to32
    by_cases hs : f.stop = true
    · rw [if_neg (by simp [hs])]
      have := size_of_spec (s := .utf32) (d := .utf32) (f := f) (limit := limit)
        (step := sizeStep32to32 signed (decide (¬ src.length ≤ limit)) (!f.lax) limit)
        (fun size seq => (signed = true → ∀ u ∈ seq, u < 0x80000000) ∧ (src.length ≤ limit → size + seq.length ≤ limit))
        (fun size ch t hi hl hu => ?_) 0 src ⟨h33 rfl rfl hs, by omega⟩ (Nat.zero_le _) h
      · simpa using this
      · have key : sizeStep32to32 signed (decide (¬ src.length ≤ limit)) (!f.lax) limit size ch t = _ :=
          size32to32 hs (f := f) (signed := signed) (size := size) (ch := ch) (t := t) (limit := limit)
            (by cases hsg : signed
                · exact .inl rfl
                · exact .inr (hi.1 hsg ch (by simp)))
            (fun g => hi.2 (by simpa using g))
        refine .inl ⟨key, ?_⟩
        intro s' n e
        rw [key] at e
        unfold specSize at e
        split_ifs at e with c1 c2
        injection e with e1 e2
        rw [hn] at e2
        simp only [Nat.sub_self, List.drop_zero] at e2
        rw [← e1, ← e2]
        refine ⟨fun g u hu => hi.1 g u (by simp [hu]), fun g => ?_⟩
        have := hi.2 g
        simp only [List.length_cons, encode, List.length_nil] at *
        omega
    · have hs' : f.stop = false := by simpa using hs
      rw [if_pos (by simp [hs'])]
      have key : ∀ (room : Nat) (l : List Nat), ∃ r, specRun .utf32 .utf32 f room l = some r ∧
          r.out.length = min room l.length ∧ r.rest = l.drop room ∧
          r.why = if l.length ≤ room then .completed else .insufficient := by
        intro room l
        induction l generalizing room with
        | nil => exact ⟨⟨[], [], .completed, []⟩, by unfold specRun run; rfl, by simp, by simp, by simp⟩
        | cons ch t ih =>
          unfold specRun run specStep
          dsimp only
          rw [hs', if_neg (by simp)]
          by_cases c : room < (encode .utf32 (dec .utf32 f.lax ch t).item.char).length
          · rw [if_pos c]
            have : room = 0 := by simp only [encode, List.length_cons, List.length_nil] at c; omega
            subst this
            exact ⟨_, rfl, by simp, by simp, by simp⟩
          · rw [if_neg c]
            dsimp only
            obtain ⟨r, h1, h2, h3, h4⟩ := ih (room - 1)
            unfold specRun specStep at h1
            rw [hs'] at h1
            rw [hn, Nat.sub_self, List.drop_zero, dif_pos (Nat.le_refl _)]
            have ce : (encode .utf32 (dec .utf32 f.lax ch t).item.char).length = 1 := rfl
            rw [ce] at c ⊢
            rw [h1]
            obtain ⟨m, rfl⟩ : ∃ m, room = m + 1 := ⟨room - 1, by omega⟩
            refine ⟨_, rfl, ?_, ?_, ?_⟩
            · simp [h2, encode]
            · simpa using h3
            · rw [h4]; simp
      obtain ⟨r, h1, h2, h3, h4⟩ := key limit src
      rw [h1]
      by_cases c : src.length ≤ limit
      · rw [if_pos c] at h4 ⊢
        have : src.drop limit = [] := List.drop_eq_nil_of_le c
        simp [sizeOf, h2, h3, h4, this]; omega
      · rw [if_neg c] at h4 ⊢
        simp [sizeOf, h2, h3, h4]; omega

/-- UTF-8 to UTF-8 without the stop flag behaves as if the limit were one less. -/
theorem transcodeSize88_spec {signed : Bool} {f : Flags} {limit : Nat} {src : List Nat} (h : Units .utf8 src)
    (hs : f.stop = false) :
    transcodeSize signed .utf8 .utf8 f (limit + 1) src = (specRun .utf8 .utf8 f limit src).map (sizeOf 0) := by
  show (if f.stop then _ else _) = _
  rw [if_neg (by simp [hs])]
  exact size_of_spec' (fun _ _ _ _ hu => size8to8Cont hs hu) src h

end Strf.Utf

import Verif.Utf.SizeLemmas
import Verif.Utf.ModelUnsafe
/-! # The unsafe functions on well-formed sources -/
namespace Strf.Utf

/-- No item of the source is ill-formed. -/
def AllGood (e : Enc) (lax : Bool) (src : List Nat) : Prop := ∀ i ∈ items e lax src, i.isBad = false

theorem AllGood.head {e : Enc} {lax : Bool} {ch : Nat} {t : List Nat} (h : AllGood e lax (ch :: t)) :
    (dec e lax ch t).item.isBad = false := by
  unfold AllGood items at h; exact h _ (by simp)

theorem AllGood.next {e : Enc} {lax : Bool} {ch : Nat} {t : List Nat} (h : AllGood e lax (ch :: t)) :
    AllGood e lax (t.drop ((dec e lax ch t).n - 1)) := by
  unfold AllGood items at h; exact fun i hi => h i (by simp [hi])

theorem scalar_lt {lax : Bool} {c : Nat} (h : Scalar lax c) : c < 0x110000 := by have := h.1; omega

theorem encode_units {e : Enc} {c : Nat} (h : c < 0x110000) : Units e (encode e c) := by
  intro u hu
  cases e <;> simp only [encode] at hu <;> (try split_ifs at hu) <;>
    simp only [List.mem_cons, List.not_mem_nil, or_false] at hu <;> simp only [Enc.bound] <;> omega

theorem WellFormed.units {e : Enc} {lax : Bool} {src : List Nat} (h : WellFormed e lax src) : Units e src := by
  obtain ⟨cs, hc, rfl⟩ := h
  intro u hu
  obtain ⟨c, hcm, hu⟩ := List.mem_flatMap.1 hu
  exact encode_units (scalar_lt (hc c hcm)) u hu

/-- Lax UTF-16: nothing is ill-formed. -/
theorem allGood_lax16 (src : List Nat) : AllGood .utf16 true src := by
  induction hn : src.length using Nat.strongRecOn generalizing src with
  | _ n ih =>
    subst hn
    rcases src with _ | ⟨ch, t⟩
    · unfold AllGood items; simp
    · unfold AllGood items
      intro i hi
      rcases List.mem_cons.1 hi with rfl | hi
      · simp only [dec]; unfold dec16
        rcases t with _ | ⟨b1, t⟩ <;> dsimp only <;> split_ifs <;> simp_all [Item.isBad]
      · exact ih _ (by simp; omega) _ rfl i hi

/-- Encodings are prefix-free, but for lax UTF-16. -/
theorem prefix_free {e : Enc} {lax : Bool} {c c' : Nat} (he : e = .utf16 → lax = false) (h : Scalar lax c)
    (h' : Scalar lax c') (p : encode e c <+: encode e c') : c = c' := by
  apply encode_injective (e := e) h h'
  refine p.eq_of_length ?_
  have hl := p.length_le
  obtain ⟨r, hr⟩ := p
  obtain ⟨h1, h2⟩ := h
  obtain ⟨h3, h4⟩ := h'
  cases e
  · simp only [encode] at hr hl ⊢
    split_ifs at hr hl ⊢ <;> simp only [List.cons_append, List.nil_append, List.cons.injEq, List.length_cons, List.length_nil] at hr hl ⊢ <;> omega
  · have := he rfl
    subst this
    simp only [Bool.false_eq_true, false_or] at h2 h4
    unfold IsSurr at h2 h4
    simp only [encode] at hr hl ⊢
    split_ifs at hr hl ⊢ <;> simp only [List.cons_append, List.nil_append, List.cons.injEq, List.length_cons, List.length_nil] at hr hl ⊢ <;> omega
  · rfl

theorem starts_of_encode {e : Enc} {lax : Bool} {c : Nat} {rest : List Nat} (he : e = .utf16 → lax = false)
    (h : Scalar lax c) : Starts e lax (encode e c ++ rest) c := by
  refine ⟨h, List.prefix_append _ _, fun c' h' p => ?_⟩
  rcases Nat.le_total (encode e c').length (encode e c).length with g | g
  · exact g
  · have := List.prefix_of_prefix_length_le (List.prefix_append (encode e c) rest) p g
    rw [prefix_free he h h' this]

theorem parses_wf {e : Enc} {lax : Bool} (he : e = .utf16 → lax = false) (cs : List Nat) (h : ∀ c ∈ cs, Scalar lax c) :
    Parses e lax (cs.flatMap (encode e)) (cs.map Item.ch) := by
  induction cs with
  | nil => exact .nil
  | cons c cs ih =>
    rw [List.flatMap_cons, List.map_cons]
    refine .ch (starts_of_encode he (h c (by simp))) ?_
    rw [List.drop_left]
    exact ih fun c hc => h c (by simp [hc])

theorem WellFormed.allGood {e : Enc} {lax : Bool} {src : List Nat} (h : WellFormed e lax src) : AllGood e lax src := by
  by_cases he : e = .utf16 → lax = false
  · have hu := h.units
    obtain ⟨cs, hc, rfl⟩ := h
    have := parses_unique (parses_items _ hu) (parses_wf he cs hc)
    intro i hi
    rw [this] at hi
    obtain ⟨c, _, rfl⟩ := List.mem_map.1 hi
    rfl
  · simp only [_root_.not_imp, Bool.not_eq_false] at he
    rw [he.1, he.2]; exact allGood_lax16 src

theorem AllGood.wellFormed {e : Enc} {lax : Bool} {src : List Nat} (hu : Units e src) (h : AllGood e lax src) :
    WellFormed e lax src := by
  have hp := parses_items (e := e) (lax := lax) src hu
  unfold AllGood at h
  revert h
  revert hp
  generalize items e lax src = is
  intro hp
  induction hp with
  | nil => intro _; exact ⟨[], by simp, rfl⟩
  | @ch src c is hs hp ih =>
    intro h
    obtain ⟨cs, h1, h2⟩ := ih (hu.drop _) (fun i hi => h i (by simp [hi]))
    refine ⟨c :: cs, ?_, ?_⟩
    · intro c' hc'
      rcases List.mem_cons.1 hc' with rfl | g
      · exact hs.1
      · exact h1 _ g
    · rw [List.flatMap_cons, ← h2]
      obtain ⟨r, hr⟩ := hs.2.1
      rw [← hr]; simp
  | bad _ _ _ _ _ => intro h; have := h _ List.mem_cons_self; cases this

/-! ## Loops -/

theorem run_good {s d : Enc} {f : Flags} {step : Nat → Nat → List Nat → Step}
    (hs : ∀ room ch t, Units s (ch :: t) → (dec s f.lax ch t).item.isBad = false →
      step room ch t = specStep d f.stop room ch t (dec s f.lax ch t))
    (room : Nat) (src : List Nat) (h : Units s src) (hg : AllGood s f.lax src) :
    run step room src = specRun s d f room src := by
  induction hn : src.length using Nat.strongRecOn generalizing src room with
  | _ n ih =>
    subst hn
    rcases src with _ | ⟨ch, t⟩
    · unfold specRun run; rfl
    · unfold specRun run
      rw [hs room ch t h hg.head]
      split
      · rfl
      · rfl
      · rename_i units next notes heq
        split_ifs with hl
        · have hu : next = t.drop ((dec s f.lax ch t).n - 1) := by
            unfold specStep at heq
            dsimp only at heq
            split_ifs at heq
            all_goals
              injection heq with _ e _
              rw [← e]
          rw [ih next.length (by simp; omega) _ _ (hu ▸ h.tail.drop _) (hu ▸ hg.next) rfl]
        · rfl

theorem size_good {s d : Enc} {f : Flags} {limit : Nat} {step : Nat → Nat → List Nat → SStep}
    (hs : ∀ size ch t, size ≤ limit → Units s (ch :: t) → (dec s f.lax ch t).item.isBad = false →
      step size ch t = specSize d f.stop limit size ch t (dec s f.lax ch t))
    (src : List Nat) (h : Units s src) (hg : AllGood s f.lax src) :
    runSize step 0 src = (specRun s d f limit src).map (sizeOf 0) := by
  have := size_of_spec (s := s) (d := d) (f := f) (limit := limit) (step := step) (fun _ l => AllGood s f.lax l)
    (fun size ch t hi hl hu => .inl ⟨hs size ch t hl hu hi.head, fun s' n e => by
      rw [hs size ch t hl hu hi.head] at e
      unfold specSize at e
      split_ifs at e
      injection e with _ e
      rw [← e]; exact hi.next⟩) 0 src hg (Nat.zero_le _) h
  simpa using this

theorem specRun_zero_good {s d : Enc} {f : Flags} {ch : Nat} {t : List Nat} (hb : (dec s f.lax ch t).item.isBad = false) :
    specRun s d f 0 (ch :: t) = some ⟨ch :: t, [], .insufficient, []⟩ := by
  unfold specRun run specStep
  dsimp only
  rw [hb, Bool.and_false, if_neg (by simp), if_pos (encode_pos _ _)]
  rfl

theorem early_good {s d : Enc} {f : Flags} {room : Nat} {src : List Nat} {body : Option TR}
    (hb : body = specRun s d f room src) (hg : AllGood s f.lax src) :
    early room src body = specRun s d f room src := by
  unfold early
  rcases src with _ | ⟨ch, t⟩
  · rw [if_pos rfl]; unfold specRun run; rfl
  · rw [if_neg (by simp)]
    by_cases h : room = 0
    · rw [if_pos h, h, specRun_zero_good hg.head]
    · rw [if_neg h, hb]

theorem sp_ch {d : Enc} {stop : Bool} {room ch n c : Nat} {t : List Nat} (h : ¬ room < (encode d c).length) :
    specStep d stop room ch t ⟨.ch c, n⟩ = .cont (encode d c) (t.drop (n - 1)) [] := by
  unfold specStep; simp only [Item.isBad, Item.char, Bool.and_false, Bool.false_eq_true, if_false]; rw [if_neg h]
theorem sp_full {d : Enc} {stop : Bool} {room ch n c : Nat} {t : List Nat} (h : room < (encode d c).length) :
    specStep d stop room ch t ⟨.ch c, n⟩ = .ret (ch :: t) .insufficient [] := by
  unfold specStep; simp only [Item.isBad, Item.char, Bool.and_false, Bool.false_eq_true, if_false]; rw [if_pos h]

/-- A store made after a check that suffices. -/
theorem emit0_ch {d : Enc} {stop : Bool} {room ch n c : Nat} {t units next : List Nat}
    (hu : units = encode d c) (hr : units.length ≤ room) (ht : next = t.drop (n - 1)) :
    emit room 0 units next (ch :: t) [] = specStep d stop room ch t ⟨.ch c, n⟩ := by
  subst hu ht
  unfold emit
  rw [if_neg (by omega), if_neg (by omega), sp_ch (by omega)]

/-- What a good head looks like in UTF-8. -/
theorem good8 {lax : Bool} {ch : Nat} {t : List Nat} (h : Units .utf8 (ch :: t))
    (hb : (dec .utf8 lax ch t).item.isBad = false) :
    ∃ c n, dec .utf8 lax ch t = ⟨.ch c, n⟩ ∧ n = (encode .utf8 c).length ∧ c < 0x110000 ∧
      ((n = 1 ∧ c < 0x80 ∧ ch = c) ∨
       (n = 2 ∧ ¬ c < 0x80 ∧ c < 0x800 ∧ ch = 0xC0 + c / 0x40 ∧ ∃ t', t = (0x80 + c % 0x40) :: t') ∨
       (n = 3 ∧ ¬ c < 0x800 ∧ c < 0x10000 ∧ ch = 0xE0 + c / 0x1000 ∧
          ∃ t', t = (0x80 + c / 0x40 % 0x40) :: (0x80 + c % 0x40) :: t') ∨
       (n = 4 ∧ ¬ c < 0x10000 ∧ ch = 0xF0 + c / 0x40000 ∧
          ∃ t', t = (0x80 + c / 0x1000 % 0x40) :: (0x80 + c / 0x40 % 0x40) :: (0x80 + c % 0x40) :: t')) := by
  have ok := dec_ok (lax := lax) h
  revert ok hb
  generalize dec .utf8 lax ch t = k
  obtain ⟨i, n⟩ := k
  cases i with
  | bad m => intro hb; cases hb
  | ch c =>
    intro _ ok
    obtain ⟨h1, h2, h3, h4⟩ := ok
    refine ⟨c, n, rfl, h1, scalar_lt h2, ?_⟩
    dsimp only at h1 h3
    obtain ⟨t', ht⟩ := h4.2.1
    simp only [encode] at ht h1
    split_ifs at ht h1 <;> simp only [List.cons_append, List.nil_append, List.cons.injEq, List.length_cons, List.length_nil] at ht h1
    · exact .inl ⟨by omega, by omega, by omega⟩
    · exact .inr (.inl ⟨by omega, by omega, by omega, by omega, t', ht.2.symm⟩)
    · exact .inr (.inr (.inl ⟨by omega, by omega, by omega, by omega, t', ht.2.symm⟩))
    · exact .inr (.inr (.inr ⟨by omega, by omega, by omega, t', ht.2.symm⟩))

theorem ustep8to32_ok {f : Flags} (room ch : Nat) (t : List Nat) (h : Units .utf8 (ch :: t))
    (hb : (dec .utf8 f.lax ch t).item.isBad = false) :
    ustep8to32 room ch t = specStep .utf32 f.stop room ch t (dec .utf8 f.lax ch t) := by
  obtain ⟨c, n, e, _, hc, hh⟩ := good8 h hb
  rw [e]
  unfold ustep8to32
  dsimp only
  rcases hh with ⟨hn, h1, h2⟩ | ⟨hn, h1, h2, h3, t', rfl⟩ | ⟨hn, h1, h2, h3, t', rfl⟩ | ⟨hn, h1, h3, t', rfl⟩
  · rw [if_pos (by omega)]; subst hn; exact emit_ch (by rw [h2]; rfl) rfl rfl
  · rw [if_neg (by omega), if_pos (by omega)]; subst hn; dsimp only
    refine emit_ch ?_ rfl rfl
    rw [utf8Decode2_eq]; simp only [encode, List.cons.injEq, and_true]; omega
  · rw [if_neg (by omega), if_neg (by omega), if_pos (by omega)]; subst hn; dsimp only
    refine emit_ch ?_ rfl rfl
    rw [utf8Decode3_eq]; simp only [encode, List.cons.injEq, and_true]; omega
  · rw [if_neg (by omega), if_neg (by omega), if_neg (by omega)]; subst hn; dsimp only
    refine emit_ch ?_ rfl rfl
    rw [utf8Decode4_eq]; simp only [encode, List.cons.injEq, and_true]; omega

theorem ustep8to16_ok {f : Flags} (room ch : Nat) (t : List Nat) (h : Units .utf8 (ch :: t))
    (hb : (dec .utf8 f.lax ch t).item.isBad = false) :
    ustep8to16 room ch t = specStep .utf16 f.stop room ch t (dec .utf8 f.lax ch t) := by
  obtain ⟨c, n, e, _, hc, hh⟩ := good8 h hb
  rw [e]
  unfold ustep8to16
  dsimp only
  by_cases r : room < 1
  · rw [if_pos r, sp_full (by have := encode_pos .utf16 c; omega)]
  rw [if_neg r]
  rcases hh with ⟨hn, h1, h2⟩ | ⟨hn, h1, h2, h3, t', rfl⟩ | ⟨hn, h1, h2, h3, t', rfl⟩ | ⟨hn, h1, h3, t', rfl⟩
  · rw [if_pos (by omega)]; subst hn; exact emit_ch (by rw [h2, enc16_bmp (by omega)]) rfl rfl
  · rw [if_neg (by omega), if_pos (by omega)]; subst hn; dsimp only
    refine emit_ch ?_ rfl rfl
    rw [utf8Decode2_eq, enc16_bmp (by omega)]; unfold tr16; simp only [List.cons.injEq, and_true]; omega
  · rw [if_neg (by omega), if_neg (by omega), if_pos (by omega)]; subst hn; dsimp only
    refine emit_ch ?_ rfl rfl
    rw [utf8Decode3_eq, enc16_bmp (by omega)]; unfold tr16; simp only [List.cons.injEq, and_true]; omega
  · rw [if_neg (by omega), if_neg (by omega), if_neg (by omega)]; subst hn
    have l2 : (encode .utf16 c).length = 2 := by simp only [encode]; rw [if_neg h1]; rfl
    by_cases r2 : room < 2
    · rw [if_pos r2, sp_full (by omega)]
    · rw [if_neg r2]
      dsimp only
      refine emit_ch ?_ rfl rfl
      rw [utf8Decode4_eq, ← pair_add (c := c) (by omega) hc]
      rw [show ch % 8 * 262144 + (128 + c / 4096 % 64) % 64 * 4096 + (128 + c / 64 % 64) % 64 * 64 + (128 + c % 64) % 64 = c by omega]

/-- What a good head looks like in UTF-16. -/
theorem good16 {lax : Bool} {ch : Nat} {t : List Nat}
    (hb : (dec .utf16 lax ch t).item.isBad = false) :
    (dec .utf16 lax ch t = ⟨.ch ch, 1⟩ ∧ (lax = true ∨ isSurrogate ch = false) ∧
      ∀ b t', t = b :: t' → ¬ (isHigh ch = true ∧ isLow b = true)) ∨
    (isHigh ch = true ∧ ∃ b t', t = b :: t' ∧ isLow b = true ∧ dec .utf16 lax ch t = ⟨.ch (fromPair ch b), 2⟩) := by
  revert hb
  simp only [dec]; unfold dec16
  have ih := @isHigh_isSurrogate ch
  rcases t with _ | ⟨b, t⟩
  · dsimp only
    intro hb
    left
    cases lax <;> cases hs : isSurrogate ch <;> simp_all [Item.isBad]
  · dsimp only
    by_cases c : isHigh ch = true ∧ isLow b = true
    · rw [if_pos (ih c.1), if_pos c]; intro _; exact .inr ⟨c.1, b, t, rfl, c.2, rfl⟩
    · rw [if_neg c]
      intro hb
      left
      refine ⟨?_, ?_, ?_⟩
      · cases lax <;> cases hs : isSurrogate ch <;> simp_all [Item.isBad]
      · cases lax <;> cases hs : isSurrogate ch <;> simp_all [Item.isBad]
      · intro b' t' e; injection e with e1 _; rw [← e1]; exact c

theorem ustep16to32_ok {f : Flags} (room ch : Nat) (t : List Nat)
    (hb : (dec .utf16 f.lax ch t).item.isBad = false) :
    ustep16to32 f.lax room ch t = specStep .utf32 f.stop room ch t (dec .utf16 f.lax ch t) := by
  unfold ustep16to32
  rcases good16 hb with ⟨e, h1, h2⟩ | ⟨h1, b, t', rfl, h2, e⟩
  · rw [e]
    dsimp only
    by_cases c : f.lax = true
    · rw [if_pos c]
      rcases t with _ | ⟨b, t⟩
      · exact emit_ch rfl rfl rfl
      · dsimp only; rw [if_neg (h2 b t rfl)]; exact emit_ch rfl rfl rfl
    · rw [if_neg c, if_neg]
      · exact emit_ch rfl rfl rfl
      · intro g; have := isHigh_isSurrogate g; simp_all
  · rw [e]
    dsimp only
    by_cases c : f.lax = true
    · rw [if_pos c, if_pos ⟨h1, h2⟩]; exact emit_ch rfl rfl rfl
    · rw [if_neg c, if_pos h1]; exact emit_ch rfl rfl rfl

theorem tr8_small {c : Nat} (h : c < 0x100) : tr8 c = c := Nat.mod_eq_of_lt h
theorem enc8_1 {c : Nat} (h : c < 0x80) : [tr8 c] = encode .utf8 c := by
  rw [tr8_small (by omega)]; simp only [encode]; rw [if_pos h]

theorem ustep16to8Lax_ok {f : Flags} (room ch : Nat) (t : List Nat) (h : Units .utf16 (ch :: t))
    (hb : (dec .utf16 f.lax ch t).item.isBad = false) :
    ustep16to8Lax room ch t = specStep .utf8 f.stop room ch t (dec .utf16 f.lax ch t) := by
  have h0 : ch < 0x10000 := h ch (by simp)
  unfold ustep16to8Lax
  dsimp only
  rcases good16 hb with ⟨e, h1, h2⟩ | ⟨h1, b, t', rfl, h2, e⟩
  · rw [e]
    by_cases c0 : ch < 0x80
    · rw [if_pos c0, if_pos c0]
      have l := len8_1 c0
      by_cases r : room < 4 ∧ 1 > room
      · rw [if_pos r, sp_full (by omega)]
      · rw [if_neg r]; exact emit0_ch (enc8_1 c0) (by simp; omega) rfl
    rw [if_neg c0, if_neg c0]
    by_cases c1 : ch < 0x800
    · rw [if_pos c1, if_pos c1]
      have l := len8_2 c0 c1
      by_cases r : room < 4 ∧ 2 > room
      · rw [if_pos r, sp_full (by omega)]
      · rw [if_neg r]; exact emit0_ch (put2_eq (by omega) c1) (by simp [put2]; omega) rfl
    rw [if_neg c1, if_neg c1]
    have l := len8_3 c1 h0
    by_cases r : room < 4 ∧ 3 > room
    · rw [if_pos r, sp_full (by omega)]
    · rw [if_neg r]
      rcases t with _ | ⟨b, t⟩
      · exact emit0_ch (put3_eq (by omega) h0) (by simp [put3]; omega) rfl
      · dsimp only
        rw [if_pos]
        · exact emit0_ch (put3_eq (by omega) h0) (by simp [put3]; omega) rfl
        · have := h2 b t rfl
          cases hh : isHigh ch <;> cases hlo : isLow b <;> simp_all
  · rw [e]
    have g := (isHigh_iff ch).1 h1
    have c0 : ¬ ch < 0x80 := by omega
    have c1 : ¬ ch < 0x800 := by omega
    rw [if_neg c0, if_neg c0, if_neg c1, if_neg c1]
    have : 0x10000 ≤ fromPair ch b ∧ fromPair ch b < 0x110000 := by rw [fromPair_eq]; omega
    have l := len8_4 (fromPair_big ch b)
    by_cases r : room < 4 ∧ 3 > room
    · rw [if_pos r, sp_full (by omega)]
    · rw [if_neg r]
      dsimp only
      rw [if_neg (by simp [h1, h2])]
      exact emit_ch (put4_eq this.1 this.2) rfl rfl

theorem ustep16to8Strict_ok {f : Flags} (hl : f.lax = false) (room ch : Nat) (t : List Nat) (h : Units .utf16 (ch :: t))
    (hb : (dec .utf16 f.lax ch t).item.isBad = false) :
    ustep16to8Strict room ch t = specStep .utf8 f.stop room ch t (dec .utf16 f.lax ch t) := by
  have h0 : ch < 0x10000 := h ch (by simp)
  unfold ustep16to8Strict
  dsimp only
  rcases good16 hb with ⟨e, h1, h2⟩ | ⟨h1, b, t', rfl, h2, e⟩
  · rw [e]
    by_cases c0 : ch < 0x80
    · rw [if_pos c0, if_pos c0]
      have l := len8_1 c0
      by_cases r : room < 4 ∧ 1 > room
      · rw [if_pos r, sp_full (by omega)]
      · rw [if_neg r]; exact emit0_ch (enc8_1 c0) (by simp; omega) rfl
    rw [if_neg c0, if_neg c0]
    by_cases c1 : ch < 0x800
    · rw [if_pos c1, if_pos c1]
      have l := len8_2 c0 c1
      by_cases r : room < 4 ∧ 2 > room
      · rw [if_pos r, sp_full (by omega)]
      · rw [if_neg r]; exact emit0_ch (put2_eq (by omega) c1) (by simp [put2]; omega) rfl
    rw [if_neg c1, if_neg c1]
    have nh : (!isHigh ch) = true := by
      rcases h1 with h1 | h1
      · simp_all
      · cases hh : isHigh ch
        · rfl
        · rw [isHigh_isSurrogate hh] at h1; cases h1
    rw [if_pos nh, if_pos nh]
    have l := len8_3 c1 h0
    by_cases r : room < 4 ∧ 3 > room
    · rw [if_pos r, sp_full (by omega)]
    · rw [if_neg r]
      exact emit0_ch (put3_eq (by omega) h0) (by simp [put3]; omega) rfl
  · rw [e]
    have g := (isHigh_iff ch).1 h1
    have c0 : ¬ ch < 0x80 := by omega
    have c1 : ¬ ch < 0x800 := by omega
    have c2 : ¬ (!isHigh ch) = true := by simp [h1]
    rw [if_neg c0, if_neg c0, if_neg c1, if_neg c1, if_neg c2, if_neg c2]
    have : 0x10000 ≤ fromPair ch b ∧ fromPair ch b < 0x110000 := by rw [fromPair_eq]; omega
    have l := len8_4 (fromPair_big ch b)
    by_cases r : room < 4 ∧ 4 > room
    · rw [if_pos r, sp_full (by omega)]
    · rw [if_neg r]
      exact emit0_ch (put4_eq this.1 this.2) (by simp [put4]; omega) rfl

theorem good32 {lax : Bool} {ch : Nat} {t : List Nat} (hb : (dec .utf32 lax ch t).item.isBad = false) :
    dec .utf32 lax ch t = ⟨.ch ch, 1⟩ ∧ ch < 0x110000 := by
  revert hb; simp only [dec]; unfold dec32
  split_ifs with c
  · intro hb; cases hb
  · intro _; exact ⟨rfl, by omega⟩

theorem ustep32to8_ok {f : Flags} (room ch : Nat) (t : List Nat)
    (hb : (dec .utf32 f.lax ch t).item.isBad = false) :
    ustep32to8 room ch t = specStep .utf8 f.stop room ch t (dec .utf32 f.lax ch t) := by
  obtain ⟨e, hc⟩ := good32 hb
  rw [e]
  unfold ustep32to8
  dsimp only
  by_cases c0 : ch < 0x80
  · rw [if_pos c0, if_pos c0]
    have l := len8_1 c0
    by_cases r : room < 4 ∧ 1 > room
    · rw [if_pos r, sp_full (by omega)]
    · rw [if_neg r]; exact emit0_ch (enc8_1 c0) (by simp; omega) rfl
  rw [if_neg c0, if_neg c0]
  by_cases c1 : ch < 0x800
  · rw [if_pos c1, if_pos c1]
    have l := len8_2 c0 c1
    by_cases r : room < 4 ∧ 2 > room
    · rw [if_pos r, sp_full (by omega)]
    · rw [if_neg r]; exact emit0_ch (put2_eq (by omega) c1) (by simp [put2]; omega) rfl
  rw [if_neg c1, if_neg c1]
  by_cases c2 : ch < 0x10000
  · rw [if_pos c2, if_pos c2]
    have l := len8_3 c1 c2
    by_cases r : room < 4 ∧ 3 > room
    · rw [if_pos r, sp_full (by omega)]
    · rw [if_neg r]; exact emit0_ch (put3_eq (by omega) c2) (by simp [put3]; omega) rfl
  · rw [if_neg c2, if_neg c2, if_pos hc]
    have l := len8_4 c2
    by_cases r : room < 4 ∧ 4 > room
    · rw [if_pos r, sp_full (by omega)]
    · rw [if_neg r]; exact emit0_ch (put4_eq (by omega) hc) (by simp [put4]; omega) rfl

theorem ustep32to16_ok {f : Flags} (room ch : Nat) (t : List Nat)
    (hb : (dec .utf32 f.lax ch t).item.isBad = false) :
    ustep32to16 room ch t = specStep .utf16 f.stop room ch t (dec .utf32 f.lax ch t) := by
  obtain ⟨e, hc⟩ := good32 hb
  rw [e]
  unfold ustep32to16
  dsimp only
  by_cases c2 : ch < 0x10000
  · rw [if_pos c2, if_pos c2]
    have l : 1 = (encode .utf16 ch).length := by rw [enc16_bmp c2]; rfl
    by_cases r : room < 2 ∧ room < 1
    · rw [if_pos r, sp_full (by omega)]
    · rw [if_neg r]; exact emit0_ch (by rw [enc16_bmp c2, tr16, Nat.mod_eq_of_lt c2]) (by simp; omega) rfl
  · rw [if_neg c2, if_neg c2]
    have l : 2 = (encode .utf16 ch).length := by simp only [encode]; rw [if_neg c2]; rfl
    by_cases r : room < 2 ∧ room < 2
    · rw [if_pos r, sp_full (by omega)]
    · rw [if_neg r]; exact emit0_ch (pair_or (by omega) hc) (by simp; omega) rfl

/-! ## The transcoders that copy -/

/-- What a copying transcoder must store: `count` units, where the items that fit end. -/
def copyTR (src : List Nat) (room : Nat) (count : Nat) : TR :=
  if src.length ≤ room then ⟨[], src, .completed, []⟩ else ⟨src.drop count, src.take count, .insufficient, []⟩

/-- The items are copied, so the whole result is given by the number of units copied: shared induction. -/
theorem copy_spec {e : Enc} {f : Flags} (count : List Nat → Nat → Nat)
    (hz : ∀ ch t room, Units e (ch :: t) → AllGood e f.lax (ch :: t) → room < (dec e f.lax ch t).n →
      room < (ch :: t).length → count (ch :: t) room = 0)
    (hs : ∀ ch t room, Units e (ch :: t) → AllGood e f.lax (ch :: t) → (dec e f.lax ch t).n ≤ room →
      room < (ch :: t).length → count (ch :: t) room =
        (dec e f.lax ch t).n + count (t.drop ((dec e f.lax ch t).n - 1)) (room - (dec e f.lax ch t).n))
    (room : Nat) (src : List Nat) (h : Units e src) (hg : AllGood e f.lax src) :
    specRun e e f room src = some (copyTR src room (count src room)) := by
  induction hn : src.length using Nat.strongRecOn generalizing src room with
  | _ n ih =>
    subst hn
    rcases src with _ | ⟨ch, t⟩
    · unfold specRun run copyTR; simp
    · have ok := dec_ok (lax := f.lax) h
      have hz := hz ch t room h hg
      have hs := hs ch t room h hg
      have hb := hg.head
      have ih := ih (t.drop ((dec e f.lax ch t).n - 1)).length (by simp; omega)
        (room - (dec e f.lax ch t).n) _ (h.tail.drop _) hg.next rfl
      unfold specRun run
      unfold specRun at ih
      have hp := ok.n_pos
      have hle := ok.n_le
      revert ok hz hs hb ih hp hle
      generalize dec e f.lax ch t = k
      obtain ⟨i, n⟩ := k
      cases i with
      | bad m => intro _ _ _ hb; cases hb
      | ch c =>
        intro ok hz hs _ ih hp hle
        have h1 : n = (encode e c).length := ok.1
        have h3 : encode e c = (ch :: t).take n := ok.2.2.1
        dsimp only at hz hs hp hle ih ⊢
        have hle : n ≤ t.length + 1 := hle
        by_cases r : room < n
        · rw [sp_full (by omega)]
          dsimp only
          unfold copyTR
          rw [if_neg (by simp only [List.length_cons]; omega), hz r (by simp only [List.length_cons]; omega)]
          rfl
        · rw [sp_ch (by omega)]
          dsimp only
          rw [dif_pos (by simp), ← h1, ih]
          have hd : t.drop (n - 1) = (ch :: t).drop n := by
            obtain ⟨m, rfl⟩ : ∃ m, n = m + 1 := ⟨n - 1, by omega⟩
            rfl
          unfold copyTR
          by_cases r2 : (ch :: t).length ≤ room
          · rw [if_pos r2, if_pos (by simp only [List.length_cons] at r2; rw [List.length_drop]; omega)]
            simp only [Option.map_some, h3, hd, List.take_append_drop, List.append_nil]
          · rw [if_neg r2, if_neg (by simp only [List.length_cons] at r2; rw [List.length_drop]; omega),
              hs (by omega) (by omega)]
            simp only [Option.map_some, h3, hd, List.append_nil, List.drop_drop, ← List.take_add]

/-! ### UTF-8 -/

theorem backUp8_some {src : List Nat} {k : Nat} (h : k < src.length) : ∃ c, backUp8 src k = some c ∧ c ≤ k := by
  induction k with
  | zero => exact ⟨0, by unfold backUp8; rw [if_pos h], Nat.le_refl _⟩
  | succ k ih =>
    unfold backUp8
    rw [List.getElem?_eq_getElem h]
    dsimp only
    by_cases c : isCont src[k + 1] = true
    · rw [if_pos c]
      obtain ⟨m, h1, h2⟩ := ih (by omega)
      exact ⟨m, h1, by omega⟩
    · rw [if_neg c]; exact ⟨k + 1, rfl, Nat.le_refl _⟩

theorem backUp8_shift {src : List Nat} {n k : Nat} (h : n + k < src.length) (hn : 0 < n)
    (h0 : ∀ u, src[n]? = some u → isCont u = false) :
    backUp8 src (n + k) = (backUp8 (src.drop n) k).map (n + ·) := by
  induction k with
  | zero =>
    have hb : backUp8 (src.drop n) 0 = some 0 := by unfold backUp8; rw [if_pos (by simp; omega)]
    rw [hb]
    obtain ⟨m, rfl⟩ : ∃ m, n = m + 1 := ⟨n - 1, by omega⟩
    have hm : m + 1 < src.length := by omega
    show backUp8 src (m + 1) = _
    unfold backUp8
    have := h0 _ (List.getElem?_eq_getElem hm)
    rw [List.getElem?_eq_getElem hm]
    simp [this]
  | succ k ih =>
    show backUp8 src ((n + k) + 1) = _
    have e : (src.drop n)[k + 1]? = src[n + k + 1]? := by rw [List.getElem?_drop]; rfl
    conv_lhs => unfold backUp8
    conv_rhs => unfold backUp8
    rw [e, List.getElem?_eq_getElem (show n + k + 1 < src.length by omega)]
    dsimp only
    split_ifs
    · exact ih (by omega)
    · simp [Nat.add_assoc]

theorem backUp8_zero {src : List Nat} {k : Nat} (h : k < src.length)
    (hc : ∀ j, 1 ≤ j → j ≤ k → ∀ u, src[j]? = some u → isCont u = true) : backUp8 src k = some 0 := by
  induction k with
  | zero => unfold backUp8; rw [if_pos h]
  | succ k ih =>
    unfold backUp8
    have := hc (k + 1) (by omega) (by omega) _ (List.getElem?_eq_getElem h)
    rw [List.getElem?_eq_getElem h]
    dsimp only
    rw [if_pos this]
    exact ih (by omega) fun j h1 h2 => hc j h1 (by omega)

theorem isCont_tail (x : Nat) (h : x < 0x40) : isCont (0x80 + x) = true := by
  rw [isCont_iff (by omega)]; omega

/-- The first byte of well-formed text is not a continuation; the others of the first sequence are. -/
theorem good8_cont {lax : Bool} {ch : Nat} {t : List Nat} (h : Units .utf8 (ch :: t)) (hg : AllGood .utf8 lax (ch :: t)) :
    isCont ch = false ∧ ∀ j, 1 ≤ j → j < (dec .utf8 lax ch t).n → ∀ u, (ch :: t)[j]? = some u → isCont u = true := by
  have hb : ch < 256 := h ch (by simp)
  obtain ⟨c, n, e, _, hc, hh⟩ := good8 h hg.head
  have nc : isCont ch = false ↔ ¬ (0x80 ≤ ch ∧ ch < 0xC0) := by
    rw [← isCont_iff hb]; simp
  rw [nc, e]
  rcases hh with ⟨hn, h1, h2⟩ | ⟨hn, h1, h2, h3, t', rfl⟩ | ⟨hn, h1, h2, h3, t', rfl⟩ | ⟨hn, h1, h3, t', rfl⟩
  · exact ⟨by omega, fun j h1 h2 => by dsimp only at h2; omega⟩
  · refine ⟨by omega, fun j h1 h2 => ?_⟩
    dsimp only at h2
    obtain rfl : j = 1 := by omega
    intro u hu; simp at hu; rw [← hu]; exact isCont_tail _ (by omega)
  · refine ⟨by omega, fun j h1 h2 => ?_⟩
    dsimp only at h2
    obtain rfl | rfl : j = 1 ∨ j = 2 := by omega
    · intro u hu; simp at hu; rw [← hu]; exact isCont_tail _ (by omega)
    · intro u hu; simp at hu; rw [← hu]; exact isCont_tail _ (by omega)
  · refine ⟨by omega, fun j h1 h2 => ?_⟩
    dsimp only at h2
    obtain rfl | rfl | rfl : j = 1 ∨ j = 2 ∨ j = 3 := by omega
    · intro u hu; simp at hu; rw [← hu]; exact isCont_tail _ (by omega)
    · intro u hu; simp at hu; rw [← hu]; exact isCont_tail _ (by omega)
    · intro u hu; simp at hu; rw [← hu]; exact isCont_tail _ (by omega)

theorem unsafe88 {f : Flags} (room : Nat) (src : List Nat) (h : Units .utf8 src) (hg : AllGood .utf8 f.lax src) :
    specRun .utf8 .utf8 f room src = some (copyTR src room ((backUp8 src room).getD 0)) := by
  refine copy_spec (fun src room => (backUp8 src room).getD 0) ?_ ?_ room src h hg
  · intro ch t room h hg r1 r2
    rw [backUp8_zero r2 fun j h1 h2 => (good8_cont h hg).2 j h1 (by omega)]
    rfl
  · intro ch t room h hg r1 r2
    have hp := (dec_ok (lax := f.lax) h).n_pos
    have hd : t.drop ((dec .utf8 f.lax ch t).n - 1) = (ch :: t).drop (dec .utf8 f.lax ch t).n :=
      (drop_cons_pred hp).symm
    have hnx := hg.next
    have hux := h.tail.drop ((dec .utf8 f.lax ch t).n - 1)
    rw [hd] at hnx hux ⊢
    have := backUp8_shift (src := ch :: t) (n := (dec .utf8 f.lax ch t).n)
      (k := room - (dec .utf8 f.lax ch t).n) (by omega) hp (by
        intro u hu
        have e : ((ch :: t).drop (dec .utf8 f.lax ch t).n)[0]? = some u := by
          rw [List.getElem?_drop]; simpa using hu
        revert e hnx hux
        generalize (ch :: t).drop (dec .utf8 f.lax ch t).n = l
        intro hnx hux e
        rcases l with _ | ⟨a, l⟩
        · cases e
        · simp at e; subst e; exact (good8_cont hux hnx).1)
    rw [show (dec .utf8 f.lax ch t).n + (room - (dec .utf8 f.lax ch t).n) = room by omega] at this
    rw [this]
    obtain ⟨c, hc, _⟩ := backUp8_some (src := (ch :: t).drop (dec .utf8 f.lax ch t).n)
      (k := room - (dec .utf8 f.lax ch t).n) (by rw [List.length_drop]; omega)
    rw [hc]; rfl

/-! ### UTF-16 -/

/-- Where the copy of UTF-16 ends. -/
def count16 (src : List Nat) (room : Nat) : Nat :=
  match src[room]?, src[room - 1]? with
  | some b, some a => if room ≠ 0 ∧ (isLow b && isHigh a) = true then room - 1 else room
  | _, _ => 0

theorem high_not_low {a : Nat} (h : isLow a = true) : isHigh a = false := by
  rw [isLow_iff] at h
  rw [← Bool.not_eq_true, isHigh_iff]; omega

theorem unsafe1616 {f : Flags} (room : Nat) (src : List Nat) (h : Units .utf16 src) (hg : AllGood .utf16 f.lax src) :
    specRun .utf16 .utf16 f room src = some (copyTR src room (count16 src room)) := by
  refine copy_spec count16 ?_ ?_ room src h hg
  · intro ch t room h hg r1 r2
    rcases good16 hg.head with ⟨e, h1, h2⟩ | ⟨h1, b, t', rfl, h2, e⟩
    · rw [e] at r1
      obtain rfl : room = 0 := by dsimp only at r1; omega
      unfold count16; simp
    · rw [e] at r1
      obtain rfl | rfl : room = 0 ∨ room = 1 := by dsimp only at r1; omega
      · unfold count16; simp
      · unfold count16; simp [h1, h2]
  · intro ch t room h hg r1 r2
    have key : ∀ (l : List Nat) (a : Nat) (k : Nat), 0 < k → k < l.length → count16 (a :: l) (k + 1) = 1 + count16 l k := by
      intro l a k hk hl
      unfold count16
      obtain ⟨m, rfl⟩ : ∃ m, k = m + 1 := ⟨k - 1, by omega⟩
      simp only [List.getElem?_cons_succ, Nat.add_sub_cancel]
      rw [List.getElem?_eq_getElem hl, List.getElem?_eq_getElem (show m < l.length by omega)]
      dsimp only
      by_cases c : (isLow l[m + 1] && isHigh l[m]) = true
      · rw [if_pos ⟨by omega, c⟩, if_pos ⟨by omega, c⟩]; omega
      · rw [if_neg (fun g => c g.2), if_neg (fun g => c g.2)]; omega
    have zero : ∀ l : List Nat, count16 l 0 = 0 := by
      intro l; unfold count16; rcases l with _ | ⟨a, l⟩ <;> simp
    rcases good16 hg.head with ⟨e, h1, h2⟩ | ⟨h1, b, t', rfl, h2, e⟩
    · rw [e] at r1 ⊢
      dsimp only at r1 ⊢
      simp only [Nat.sub_self, List.drop_zero]
      obtain ⟨k, rfl⟩ : ∃ k, room = k + 1 := ⟨room - 1, by omega⟩
      simp only [List.length_cons] at r2
      rw [Nat.add_sub_cancel]
      rcases Nat.eq_zero_or_pos k with rfl | hk
      · rw [zero]
        rcases t with _ | ⟨b, t⟩
        · simp at r2
        · have := h2 b t rfl
          unfold count16
          simp only [Nat.zero_add, List.getElem?_cons_succ, List.getElem?_cons_zero, Nat.sub_self, Nat.add_zero]
          rw [if_neg]
          rintro ⟨_, g⟩
          simp only [Bool.and_eq_true] at g
          exact this ⟨g.2, g.1⟩
      · exact key _ _ _ hk (by omega)
    · rw [e] at r1 ⊢
      dsimp only at r1 ⊢
      simp only [List.length_cons] at r2
      obtain ⟨k, rfl⟩ : ∃ k, room = k + 2 := ⟨room - 2, by omega⟩
      rw [Nat.add_sub_cancel]
      show count16 _ ((k + 1) + 1) = 2 + count16 t' k
      rw [key _ _ _ (by omega) (by simp; omega)]
      rcases Nat.eq_zero_or_pos k with rfl | hk
      · rw [zero]
        rcases t' with _ | ⟨a, t'⟩
        · simp at r2
        · unfold count16
          simp [high_not_low h2]
      · rw [key _ _ _ hk (by omega)]; omega

/-! ### UTF-32 -/

theorem unsafe3232 {f : Flags} (room : Nat) (src : List Nat) (h : Units .utf32 src) (hg : AllGood .utf32 f.lax src) :
    specRun .utf32 .utf32 f room src = some (copyTR src room room) := by
  refine copy_spec (fun _ room => room) ?_ ?_ room src h hg
  · intro ch t room _ hg r1 _
    have g := (good32 hg.head).1; rw [g] at r1; exact Nat.lt_one_iff.1 r1
  · intro ch t room _ hg r1 _
    have g := (good32 hg.head).1; rw [g] at r1 ⊢; have : 1 ≤ room := r1; show room = 1 + (room - 1); omega

/-! ## All of unsafe_transcode -/

theorem unsafe_spec (s d : Enc) (f : Flags) (room : Nat) (src : List Nat) (h : Units s src) (hg : AllGood s f.lax src) :
    unsafeTranscode s d f room src = specRun s d f room src := by
  cases s <;> cases d
  · show unsafeTranscode8to8 room src = _
    rw [unsafe88 room src h hg]
    unfold unsafeTranscode8to8 copyTR
    split_ifs with r
    · rfl
    · obtain ⟨c, hc, _⟩ := backUp8_some (src := src) (k := room) (by omega)
      rw [hc]; rfl
  · exact run_good (fun room ch t hu hb => ustep8to16_ok room ch t hu hb) room src h hg
  · exact early_good (run_good (fun room ch t hu hb => ustep8to32_ok room ch t hu hb) room src h hg) hg
  · refine early_good ?_ hg
    by_cases c : f.lax = true
    · rw [if_neg (by simp [c])]
      exact run_good (fun room ch t hu hb => ustep16to8Lax_ok room ch t hu hb) room src h hg
    · rw [if_pos (by simpa using c)]
      exact run_good (fun room ch t hu hb => ustep16to8Strict_ok (by simpa using c) room ch t hu hb) room src h hg
  · show unsafeTranscode16to16 room src = _
    rw [unsafe1616 room src h hg]
    unfold unsafeTranscode16to16 copyTR count16
    rcases src with _ | ⟨ch, t⟩
    · simp
    · rw [if_pos (by simp)]
      split_ifs with r r2
      · rfl
      · dsimp only
        rw [List.getElem?_eq_getElem (show room < (ch :: t).length by omega),
          List.getElem?_eq_getElem (show room - 1 < (ch :: t).length by omega)]
        simp [r2]
      · have : room = 0 := by omega
        subst this; simp
  · exact run_good (fun room ch t _ hb => ustep16to32_ok room ch t hb) room src h hg
  · exact early_good (run_good (fun room ch t _ hb => ustep32to8_ok room ch t hb) room src h hg) hg
  · exact run_good (fun room ch t _ hb => ustep32to16_ok room ch t hb) room src h hg
  · show bypassUnsafe room src = _
    rw [unsafe3232 room src h hg]
    unfold bypassUnsafe copyTR
    rcases src with _ | ⟨ch, t⟩
    · simp
    · rw [if_pos (by simp)]; split_ifs <;> rfl

/-! ## unsafe_transcode_size -/

theorem copy_size {e : Enc} {f : Flags} {room n : Nat} {src : List Nat} (h : specRun e e f room src = some (copyTR src room n))
    (hn : src.length > room → n ≤ room) :
    (if src.length ≤ room then some ⟨src.length, [], .completed⟩ else some ⟨n, src.drop n, .insufficient⟩) =
      (specRun e e f room src).map (sizeOf 0) := by
  rw [h]; unfold copyTR
  split_ifs with c
  · simp [sizeOf]
  · have := hn (by omega)
    simp [sizeOf, List.length_take]; omega

theorem usize8to16_ok {f : Flags} {limit size ch : Nat} {t : List Nat} (h : Units .utf8 (ch :: t))
    (hb : (dec .utf8 f.lax ch t).item.isBad = false) :
    ustepSize8to16 limit size ch t = specSize .utf16 f.stop limit size ch t (dec .utf8 f.lax ch t) := by
  obtain ⟨c, n, e, hlen, hc, hh⟩ := good8 h hb
  have key : ∀ m, m = (encode .utf16 c).length → (ch :: t).length ≥ n → 1 ≤ n →
      (if size + m > limit then SStep.ret ⟨size, ch :: t, .insufficient⟩
        else if (ch :: t).length < n then .ub else .cont (size + m) ((ch :: t).drop n)) =
      specSize .utf16 f.stop limit size ch t ⟨.ch c, n⟩ := by
    intro m hm hl h1
    rw [if_neg (show ¬ (ch :: t).length < n by omega), drop_cons_pred h1]
    exact ss_ch hm rfl
  rw [e]
  unfold ustepSize8to16
  dsimp only
  have b1 : ∀ c, c < 0x10000 → 1 = (encode .utf16 c).length := fun c h => by rw [enc16_bmp h]; rfl
  rcases hh with ⟨hn, h1, h2⟩ | ⟨hn, h1, h2, h3, t', rfl⟩ | ⟨hn, h1, h2, h3, t', rfl⟩ | ⟨hn, h1, h3, t', rfl⟩
  · have hx : (if ch < 0x80 then 0x09 else if ch < 0xE0 then 0x0A else if ch < 0xF0 then 0x0B else 0x14) = 0x09 := by split_ifs <;> omega
    rw [hx]; subst hn; exact key 1 (b1 _ (by omega)) (by simp) (by omega)
  · have hx : (if ch < 0x80 then 0x09 else if ch < 0xE0 then 0x0A else if ch < 0xF0 then 0x0B else 0x14) = 0x0A := by split_ifs <;> omega
    rw [hx]; subst hn; exact key 1 (b1 _ (by omega)) (by simp) (by omega)
  · have hx : (if ch < 0x80 then 0x09 else if ch < 0xE0 then 0x0A else if ch < 0xF0 then 0x0B else 0x14) = 0x0B := by split_ifs <;> omega
    rw [hx]; subst hn; exact key 1 (b1 _ (by omega)) (by simp) (by omega)
  · have hx : (if ch < 0x80 then 0x09 else if ch < 0xE0 then 0x0A else if ch < 0xF0 then 0x0B else 0x14) = 0x14 := by split_ifs <;> omega
    rw [hx]; subst hn
    exact key 2 (by simp only [encode]; rw [if_neg h1]; rfl) (by simp) (by omega)

theorem usize16to32_ok {f : Flags} {limit size ch : Nat} {t : List Nat}
    (hb : (dec .utf16 f.lax ch t).item.isBad = false) :
    ustepSize16to32 f.lax limit size ch t = specSize .utf32 f.stop limit size ch t (dec .utf16 f.lax ch t) := by
  by_cases c : size ≥ limit
  · rw [specSize32_full (by simp [hb]) c]
    unfold ustepSize16to32; rw [if_pos c]
  unfold ustepSize16to32
  rw [if_neg c]
  have e : ∀ next, SStep.cont (size + 1) next = sok limit size 1 (ch :: t) next := by
    intro next; unfold sok; rw [if_neg (by omega)]
  simp only [e]
  rcases good16 hb with ⟨e, h1, h2⟩ | ⟨h1, b, t', rfl, h2, e⟩
  · rw [e]
    by_cases c : f.lax = true
    · rw [if_pos c]
      rcases t with _ | ⟨b, t⟩
      · exact sok_ch rfl rfl
      · dsimp only; rw [if_neg (by simpa using h2 b t rfl)]; exact sok_ch rfl rfl
    · rw [if_neg c, if_neg]
      · exact sok_ch rfl rfl
      · intro g; have := isHigh_isSurrogate g; simp_all
  · rw [e]
    dsimp only
    by_cases c : f.lax = true
    · rw [if_pos c, if_pos (by simp [h1, h2])]; exact sok_ch rfl rfl
    · rw [if_neg c, if_pos h1]; exact sok_ch rfl rfl

theorem usize16to8_ok {f : Flags} (hl : f.lax = false) {limit size ch : Nat} {t : List Nat} (h : Units .utf16 (ch :: t))
    (hb : (dec .utf16 f.lax ch t).item.isBad = false) :
    ustepSize16to8 limit size ch t = specSize .utf8 f.stop limit size ch t (dec .utf16 f.lax ch t) := by
  have h0 : ch < 0x10000 := h ch (by simp)
  unfold ustepSize16to8
  dsimp only
  rcases good16 hb with ⟨e, h1, h2⟩ | ⟨h1, b, t', rfl, h2, e⟩
  · rw [e]
    have key : ∀ m, m = (encode .utf8 ch).length →
        (if size + m > limit then SStep.ret ⟨size, ch :: t, .insufficient⟩
          else if (ch :: t).length < 1 then .ub else .cont (size + m) ((ch :: t).drop 1)) =
        specSize .utf8 f.stop limit size ch t ⟨.ch ch, 1⟩ := by
      intro m hm
      rw [if_neg (show ¬ (ch :: t).length < 1 by simp)]
      exact ss_ch hm rfl
    by_cases c0 : ch < 0x80
    · have hx : (if ch < 0x80 then 0x9 else if ch < 0x800 then 0xA else if isHigh ch = true then 0x14 else 0xB) = 0x9 := by rw [if_pos c0]
      rw [hx]; exact key 1 (len8_1 c0)
    by_cases c1 : ch < 0x800
    · have hx : (if ch < 0x80 then 0x9 else if ch < 0x800 then 0xA else if isHigh ch = true then 0x14 else 0xB) = 0xA := by rw [if_neg c0, if_pos c1]
      rw [hx]; exact key 2 (len8_2 c0 c1)
    · have hx : (if ch < 0x80 then 0x9 else if ch < 0x800 then 0xA else if isHigh ch = true then 0x14 else 0xB) = 0xB := by
        rw [if_neg c0, if_neg c1, if_neg]; intro g; have := isHigh_isSurrogate g; simp_all
      rw [hx]; exact key 3 (len8_3 c1 h0)
  · rw [e]
    have g := (isHigh_iff ch).1 h1
    have hx : (if ch < 0x80 then 0x9 else if ch < 0x800 then 0xA else if isHigh ch = true then 0x14 else 0xB) = 0x14 := by
      rw [if_neg (by omega), if_neg (by omega), if_pos h1]
    rw [hx]
    show (if size + 4 > limit then SStep.ret ⟨size, ch :: b :: t', .insufficient⟩
      else if (ch :: b :: t').length < 2 then .ub else .cont (size + 4) ((ch :: b :: t').drop 2)) = _
    rw [if_neg (show ¬ (ch :: b :: t').length < 2 by simp)]
    exact ss_ch (len8_4 (fromPair_big ch b)) rfl

theorem usize32to8_ok {f : Flags} {limit size ch : Nat} {t : List Nat}
    (hb : (dec .utf32 f.lax ch t).item.isBad = false) :
    ustepSize32to8 limit size ch t = specSize .utf8 f.stop limit size ch t (dec .utf32 f.lax ch t) := by
  obtain ⟨e, hc⟩ := good32 hb
  rw [e]
  unfold ustepSize32to8
  dsimp only
  have key : ∀ m, m ≤ 4 → m = (encode .utf8 ch).length →
      (if size + 4 < limit then SStep.cont (size + m) t else
        if size + m > limit then SStep.ret ⟨size, ch :: t, .insufficient⟩ else .cont (size + m) t) =
      specSize .utf8 f.stop limit size ch t ⟨.ch ch, 1⟩ := by
    intro m h4 hm
    rw [← ss_ch (n := 1) (next := t) hm rfl]
    by_cases c : size + 4 < limit
    · rw [if_pos c, if_neg (by omega)]
    · rw [if_neg c]
  by_cases c0 : ch < 0x80
  · have hx : (if ch < 0x80 then 1 else if ch < 0x800 then 2 else if ch < 0x10000 then 3 else 4) = 1 := by split_ifs <;> omega
    rw [hx]; exact key 1 (by omega) (len8_1 c0)
  by_cases c1 : ch < 0x800
  · have hx : (if ch < 0x80 then 1 else if ch < 0x800 then 2 else if ch < 0x10000 then 3 else 4) = 2 := by split_ifs <;> omega
    rw [hx]; exact key 2 (by omega) (len8_2 c0 c1)
  by_cases c2 : ch < 0x10000
  · have hx : (if ch < 0x80 then 1 else if ch < 0x800 then 2 else if ch < 0x10000 then 3 else 4) = 3 := by split_ifs <;> omega
    rw [hx]; exact key 3 (by omega) (len8_3 c1 c2)
  · have hx : (if ch < 0x80 then 1 else if ch < 0x800 then 2 else if ch < 0x10000 then 3 else 4) = 4 := by split_ifs <;> omega
    rw [hx]; exact key 4 (by omega) (len8_4 c2)

theorem unsafe_size_spec (s d : Enc) (f : Flags) (limit : Nat) (src : List Nat) (h : Units s src)
    (hg : AllGood s f.lax src) (hx : ¬ (s = .utf8 ∧ d = .utf32)) :
    unsafeTranscodeSize s d f limit src = (specRun s d f limit src).map (sizeOf 0) := by
  cases s <;> cases d
  · show usize8to8 limit src = _
    rw [← copy_size (unsafe88 limit src h hg)]
    · unfold usize8to8
      split_ifs with c
      · rfl
      · obtain ⟨n, hn, _⟩ := backUp8_some (src := src) (k := limit) (by omega)
        rw [hn]; rfl
    · intro g
      obtain ⟨n, hn, h2⟩ := backUp8_some (src := src) (k := limit) (by omega)
      rw [hn]; exact h2
  · exact size_good (fun size ch t _ hu hb => usize8to16_ok hu hb) src h hg
  · exact absurd ⟨rfl, rfl⟩ hx
  · show usize16to8 f.lax limit src = _
    unfold usize16to8
    by_cases c : f.lax = true
    · rw [if_neg (by simp [c])]
      have := transcodeSize_spec (signed := false) (s := .utf16) (d := .utf8) (f := f) (limit := limit) h
        (by intro g; cases g) (by intro g; cases g)
      rw [← this]
      show _ = transcodeSize16to8 f limit src
      unfold transcodeSize16to8
      rw [if_neg (by simp [c])]
    · rw [if_pos (by simpa using c)]
      exact size_good (fun size ch t _ hu hb => usize16to8_ok (by simpa using c) hu hb) src h hg
  · show usize16to16 limit src = _
    rw [← copy_size (unsafe1616 limit src h hg)]
    · unfold usize16to16 count16
      split_ifs with c r
      · rfl
      · rw [List.getElem?_eq_getElem (show limit < src.length by omega),
          List.getElem?_eq_getElem (show limit - 1 < src.length by omega)]
        simp only [Bool.and_comm (isHigh _)]
        have : limit ≠ 0 := by omega
        simp [this]
      · have : limit = 0 := by omega
        subst this
        rcases src with _ | ⟨ch, t⟩ <;> simp
    · intro g
      unfold count16
      split
      · split_ifs <;> omega
      · omega
  · exact size_good (fun size ch t _ hu hb => usize16to32_ok hb) src h hg
  · exact size_good (fun size ch t _ hu hb => usize32to8_ok hb) src h hg
  · -- 32 to 16
    show usize32to16 limit src = _
    have key : ∀ size ch t, (¬ decide (¬ src.length * 2 ≤ limit) = true → size + 2 * (ch :: t).length ≤ limit) →
        (dec .utf32 f.lax ch t).item.isBad = false →
        ustepSize32to16 (decide (¬ src.length * 2 ≤ limit)) limit size ch t =
          specSize .utf16 f.stop limit size ch t (dec .utf32 f.lax ch t) := by
      intro size ch t hi hb
      obtain ⟨e, hc⟩ := good32 hb
      rw [e]
      have hlen : 1 + (if 0x10000 ≤ ch then 1 else 0) = (encode .utf16 ch).length := by
        by_cases c : 0x10000 ≤ ch
        · rw [if_pos c]; simp only [encode]; rw [if_neg (by omega)]; rfl
        · rw [if_neg c, enc16_bmp (by omega)]; rfl
      rw [← ss_ch (n := 1) (next := t) hlen rfl]
      unfold ustepSize32to16
      dsimp only
      rw [Nat.add_sub_cancel]
      by_cases g : decide (¬ src.length * 2 ≤ limit) = true
      · rw [g]; simp
      · have := hi g
        simp only [Bool.not_eq_true] at g
        simp only [List.length_cons] at this
        rw [g, Bool.false_and, if_neg (by simp),
          if_neg (show ¬ size + (1 + (if 0x10000 ≤ ch then 1 else 0)) > limit by split_ifs <;> omega)]
    have := size_of_spec (s := .utf32) (d := .utf16) (f := f) (limit := limit)
      (step := ustepSize32to16 (decide (¬ src.length * 2 ≤ limit)) limit)
      (fun size seq => AllGood .utf32 f.lax seq ∧ (¬ decide (¬ src.length * 2 ≤ limit) = true → size + 2 * seq.length ≤ limit))
      (fun size ch t hi hl hu => .inl ⟨key size ch t hi.2 hi.1.head, ?_⟩) 0 src ⟨hg, by simp; omega⟩ (Nat.zero_le _) h
    · simpa [usize32to16] using this
    · intro s' n e
      rw [key size ch t hi.2 hi.1.head] at e
      obtain ⟨eh, hc⟩ := good32 hi.1.head
      have hnx := hi.1.next
      rw [eh] at e hnx
      simp only [Nat.sub_self, List.drop_zero] at hnx
      unfold specSize at e
      split_ifs at e with c1 c2
      injection e with e1 e2
      simp only [Nat.sub_self, List.drop_zero] at e2
      have h4 : (encode .utf16 ch).length ≤ 2 := by
        simp only [encode]; split_ifs <;> simp
      have e1 : size + (encode .utf16 ch).length = s' := e1
      rw [← e1, ← e2]
      refine ⟨hnx, fun g => ?_⟩
      have := hi.2 g
      simp only [List.length_cons] at this
      omega
  · show usize32to32 limit src = _
    rw [← copy_size (unsafe3232 limit src h hg) (fun _ => Nat.le_refl _)]
    rfl

/-- Code points of well-formed UTF-8 are its non-continuation bytes. -/
theorem countNonCont_eq {lax : Bool} (src : List Nat) (h : Units .utf8 src) (hg : AllGood .utf8 lax src) :
    countNonCont src = (items .utf8 lax src).length := by
  induction hn : src.length using Nat.strongRecOn generalizing src with
  | _ n ih =>
    subst hn
    rcases src with _ | ⟨ch, t⟩
    · unfold items; rfl
    · have h0 := good8_cont h hg
      have hnx := hg.next
      have ih := ih (t.drop ((dec .utf8 lax ch t).n - 1)).length (by simp; omega) _ (h.tail.drop _) hnx rfl
      unfold items
      rw [List.length_cons, ← ih]
      obtain ⟨c, n, e, hlen, hc, hh⟩ := good8 h hg.head
      have d1 := h0.2
      rw [e] at d1 ⊢
      have nc := h0.1
      have step : ∀ a l, isCont a = true → countNonCont (a :: l) = countNonCont l := by
        intro a l ha; simp [countNonCont, ha]
      rcases hh with ⟨hn, h1, h2⟩ | ⟨hn, h1, h2, h3, t', rfl⟩ | ⟨hn, h1, h2, h3, t', rfl⟩ | ⟨hn, h1, h3, t', rfl⟩
      · subst hn; simp [countNonCont, nc]; omega
      · subst hn
        simp only [countNonCont, nc]
        rw [isCont_tail _ (by omega)]; simp; omega
      · subst hn
        simp only [countNonCont, nc]
        rw [isCont_tail _ (by omega), isCont_tail _ (by omega)]; simp; omega
      · subst hn
        simp only [countNonCont, nc]
        rw [isCont_tail _ (by omega), isCont_tail _ (by omega), isCont_tail _ (by omega)]; simp; omega

theorem usize8to32Loop_small {limit size : Nat} (src : List Nat) (h : size + countNonCont src < limit) :
    usize8to32Loop limit size src = ⟨size + countNonCont src, [], .completed⟩ := by
  induction src generalizing size with
  | nil => rfl
  | cons a l ih =>
    unfold usize8to32Loop
    simp only [countNonCont] at h ⊢
    rw [if_neg (by omega), ih (by omega), Nat.add_assoc]

theorem usize8to32Loop_size {limit size : Nat} (src : List Nat) (h : size ≤ limit) :
    (usize8to32Loop limit size src).size = min limit (size + countNonCont src) := by
  induction src generalizing size with
  | nil => simp [usize8to32Loop, countNonCont]; omega
  | cons a l ih =>
    unfold usize8to32Loop
    by_cases c : size ≥ limit
    · rw [if_pos c]; dsimp only; omega
    · rw [if_neg c, ih (by split_ifs <;> omega)]
      simp only [countNonCont, Nat.add_assoc]

end Strf.Utf

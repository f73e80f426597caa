import Verif.Utf.Decode
/-! # The reference decoders meet the specification -/
namespace Strf.Utf

/-- For a self-delimiting encoding every match is the longest. -/
theorem starts_of_take {e : Enc} {lax : Bool} {src : List Nat} {c n : Nat} (hc : Scalar lax c)
    (he : encode e c = src.take n)
    (hmax : ∀ c', Scalar lax c' → encode e c' <+: src → (encode e c').length ≤ (encode e c).length) :
    Starts e lax src c := ⟨hc, he ▸ List.take_prefix _ _, hmax⟩

/-- The first byte determines the length of a UTF-8 sequence. -/
theorem enc8_len {lax : Bool} {c b0 : Nat} {t : List Nat} (hc : Scalar lax c) (h : encode .utf8 c <+: b0 :: t) :
    (encode .utf8 c).length = if b0 < 0x80 then 1 else if b0 < 0xE0 then 2 else if b0 < 0xF0 then 3 else 4 := by
  obtain ⟨hc1, _⟩ := hc
  obtain ⟨s, hs⟩ := h
  simp only [encode] at hs ⊢
  split_ifs at hs <;> simp only [List.cons_append, List.nil_append, List.cons.injEq] at hs <;>
    split_ifs <;> simp <;> omega

theorem starts8 {lax : Bool} {b0 : Nat} {t : List Nat} {c n : Nat} (hc : Scalar lax c)
    (he : encode .utf8 c = (b0 :: t).take n) : Starts .utf8 lax (b0 :: t) c :=
  starts_of_take hc he fun c' hc' hp => by
    rw [enc8_len hc' hp, enc8_len hc (he ▸ List.take_prefix _ _)]

theorem tok8_ch {lax : Bool} {b0 : Nat} {t : List Nat} {c n : Nat} (hc : Scalar lax c)
    (he : encode .utf8 c = (b0 :: t).take n) (hn : n ≤ t.length + 1) :
    TokOk .utf8 lax (b0 :: t) ⟨.ch c, n⟩ := by
  refine ⟨?_, hc, he, starts8 hc he⟩
  rw [he, List.length_take]; simp; omega

theorem tok8_bad {lax : Bool} {b0 : Nat} {t : List Nat} {n : Nat} (hn : 1 ≤ n) (hl : n ≤ t.length + 1)
    (hno : ∀ c, Scalar lax c → ¬ encode .utf8 c <+: b0 :: t)
    (hi : n = 1 ∨ Initial .utf8 lax ((b0 :: t).take n))
    (hm : n + 1 ≤ t.length + 1 → ¬ Initial .utf8 lax ((b0 :: t).take (n + 1))) :
    TokOk .utf8 lax (b0 :: t) ⟨.bad n, n⟩ :=
  ⟨rfl, fun c hc => hno c hc.1 hc.2.1, maximal_of hn hl hi hm⟩

theorem initial_of_enc {lax : Bool} {c : Nat} {l m : List Nat} (hc : Scalar lax c)
    (h : encode .utf8 c = l ++ m) : Initial .utf8 lax l := ⟨c, hc, m, h.symm⟩

theorem scalar_of {lax : Bool} {c : Nat} (h : c ≤ 0x10FFFF) (h' : lax = true ∨ ¬ (0xD800 ≤ c ∧ c ≤ 0xDFFF)) :
    Scalar lax c := ⟨h, h'⟩

set_option linter.unusedSimpArgs false in
theorem dec8_ok {lax : Bool} {b0 : Nat} {t : List Nat} (h : Units .utf8 (b0 :: t)) :
    TokOk .utf8 lax (b0 :: t) (dec8 lax b0 t) := by
  have h0 : b0 < 256 := h b0 (by simp)
  unfold dec8
  by_cases c0 : b0 < 0x80
  · rw [if_pos c0]
    refine tok8_ch (scalar_of (by omega) (.inr (by omega))) ?_ (by simp)
    simp [encode, c0]
  rw [if_neg c0]
  by_cases c1 : 0xC0 = b0 &&& 0xE0
  · rw [if_pos c1]
    have r0 := (andE0_C0 h0).1 c1
    rcases t with _ | ⟨b1, t1⟩
    · refine tok8_bad (by simp) (by simp) ?_ (.inl rfl) (by simp)
      intro c hc hp
      rcases enc8_head hc hp with g | ⟨_, _, b1, t1, g, _⟩ | g | g
      · omega
      · cases g
      · omega
      · omega
    · have h1 : b1 < 256 := h b1 (by simp)
      dsimp only
      by_cases c2 : b0 > 0xC1 ∧ isCont b1 = true
      · rw [if_pos c2]
        have l := leaf2 h0 h1 c1 c2
        rw [l.1]
        refine tok8_ch (scalar_of (by omega) (.inr (by omega))) ?_ (by simp)
        rw [enc8_2 l.2]; rfl
      · rw [if_neg c2]
        rw [isCont_iff h1] at c2
        refine tok8_bad (by simp) (by simp) ?_ (.inl rfl) ?_
        · intro c hc hp
          rcases enc8_head hc hp with g | ⟨_, _, b1', t1', g, _⟩ | g | g
          · omega
          · cases g; omega
          · omega
          · omega
        · intro _ hi
          have := init8_2 (by simpa using hi); omega
  rw [if_neg c1]
  by_cases c2 : 0xE0 = b0
  · rw [if_pos c2]; subst c2
    rcases t with _ | ⟨b1, t1⟩
    · refine tok8_bad (by simp) (by simp) ?_ (.inl rfl) (by simp)
      intro c hc hp
      rcases enc8_head hc hp with g | ⟨g, _⟩ | ⟨_, _, b1, b2, t1, g, _⟩ | g
      · omega
      · omega
      · cases g
      · omega
    · have h1 : b1 < 256 := h b1 (by simp)
      dsimp only
      by_cases c3 : b1 &&& 0xE0 = 0xA0
      · rw [if_pos c3]
        have r1 := (andE0_A0 h1).1 c3
        have hi : Initial .utf8 lax [0xE0, b1] := by
          have := enc8_3 (b0 := 0xE0) (b1 := b1) (b2 := 0x80) (by omega)
          exact initial_of_enc (c := ((0xE0 - 0xE0) * 64 + (b1 - 0x80)) * 64 + (0x80 - 0x80)) (m := [0x80])
            (scalar_of (by omega) (.inr (by omega))) this
        rcases t1 with _ | ⟨b2, t2⟩
        · refine tok8_bad (by simp) (by simp) ?_ (.inr hi) (by simp)
          intro c hc hp
          rcases enc8_head hc hp with g | ⟨g, _⟩ | ⟨_, _, b1, b2, t1, g, _⟩ | g
          · omega
          · omega
          · cases g
          · omega
        · have h2 : b2 < 256 := h b2 (by simp)
          dsimp only
          by_cases c4 : isCont b2 = true
          · rw [if_pos c4]
            have l := leafE0 h1 h2 c3 c4
            rw [l.1]
            refine tok8_ch (scalar_of (by omega) (.inr (by omega))) ?_ (by simp)
            have := enc8_3 (b0 := 0xE0) (b1 := b1) (b2 := b2) (by omega)
            simpa using this
          · rw [if_neg c4]
            rw [isCont_iff h2] at c4
            refine tok8_bad (by simp) (by simp) ?_ (.inr hi) ?_
            · intro c hc hp
              rcases enc8_head hc hp with g | ⟨g, _⟩ | ⟨_, _, b1', b2', t1', g, _⟩ | g
              · omega
              · omega
              · cases g; omega
              · omega
            · intro _ hi
              have := init8_3 (by simpa using hi); omega
      · rw [if_neg c3]
        rw [andE0_A0 h1] at c3
        refine tok8_bad (by simp) (by simp) ?_ (.inl rfl) ?_
        · intro c hc hp
          rcases enc8_head hc hp with g | ⟨g, _⟩ | ⟨_, _, b1', b2', t1', g, _⟩ | g
          · omega
          · omega
          · cases g; omega
          · omega
        · intro _ hi
          have := init8_2 (by simpa using hi); omega
  rw [if_neg c2]
  by_cases c3 : 0xE0 = b0 &&& 0xF0
  · rw [if_pos c3]
    have r0 := (andF0_E0 h0).1 c3
    rcases t with _ | ⟨b1, t1⟩
    · refine tok8_bad (by simp) (by simp) ?_ (.inl rfl) (by simp)
      intro c hc hp
      rcases enc8_head hc hp with g | ⟨_, g, _⟩ | ⟨_, _, b1, b2, t1, g, _⟩ | g
      · omega
      · omega
      · cases g
      · omega
    · have h1 : b1 < 256 := h b1 (by simp)
      dsimp only
      by_cases c4 : isCont b1 = true ∧ first2of3Valid (first2of3 b0 b1) lax = true
      · rw [if_pos c4]
        have l := leaf3a h0 h1 c2 c3 c4
        have hi : Initial .utf8 lax [b0, b1] := by
          have := enc8_3 (b0 := b0) (b1 := b1) (b2 := 0x80) (by omega)
          exact initial_of_enc (c := ((b0 - 0xE0) * 64 + (b1 - 0x80)) * 64 + (0x80 - 0x80)) (m := [0x80])
            (scalar_of (by omega) (l.2.2.2.2.2.imp_right (by omega))) this
        rcases t1 with _ | ⟨b2, t2⟩
        · refine tok8_bad (by simp) (by simp) ?_ (.inr hi) (by simp)
          intro c hc hp
          rcases enc8_head hc hp with g | ⟨_, g, _⟩ | ⟨_, _, b1, b2, t1, g, _⟩ | g
          · omega
          · omega
          · cases g
          · omega
        · have h2 : b2 < 256 := h b2 (by simp)
          dsimp only
          by_cases c5 : isCont b2 = true
          · rw [if_pos c5]
            have r2 := (isCont_iff h2).1 c5
            have e : (first2of3 b0 b1 <<< 6) ||| (b2 &&& 0x3F)
                = ((b0 - 0xE0) * 64 + (b1 - 0x80)) * 64 + (b2 - 0x80) := by
              rw [three_eq, l.1]; omega
            rw [e]
            refine tok8_ch (scalar_of (by omega) (l.2.2.2.2.2.imp_right (by omega))) ?_ (by simp)
            rw [enc8_3 (by omega)]; rfl
          · rw [if_neg c5]
            rw [isCont_iff h2] at c5
            refine tok8_bad (by simp) (by simp) ?_ (.inr hi) ?_
            · intro c hc hp
              rcases enc8_head hc hp with g | ⟨_, g, _⟩ | ⟨_, _, b1', b2', t1', g, _⟩ | g
              · omega
              · omega
              · cases g; omega
              · omega
            · intro _ hi
              have := init8_3 (by simpa using hi); omega
      · rw [if_neg c4]
        rw [isCont_iff h1, first2of3Valid_iff, first2of3_eq] at c4
        have c4' : ¬ ((0x80 ≤ b1 ∧ b1 < 0xC0) ∧ (lax = true ∨ ¬ (b0 = 0xED ∧ 0xA0 ≤ b1))) := by
          rintro ⟨g1, g2⟩; exact c4 ⟨g1, g2.imp_right (by omega)⟩
        refine tok8_bad (by simp) (by simp) ?_ (.inl rfl) ?_
        · intro c hc hp
          rcases enc8_head hc hp with g | ⟨_, g, _⟩ | ⟨_, _, b1', b2', t1', g, g1, g2, _, _, _, g3⟩ | g
          · omega
          · omega
          · cases g; exact c4' ⟨⟨g1, g2⟩, g3⟩
          · omega
        · intro _ hi
          have g := init8_2 (by simpa using hi)
          exact c4' ⟨⟨g.2.2.1, g.2.2.2.1⟩, g.2.2.2.2.2.1⟩
  rw [if_neg c3]
  have r0 : 0x80 ≤ b0 ∧ ¬ (0xC0 ≤ b0 ∧ b0 < 0xF0) := by
    rw [andF0_E0 h0] at c3; rw [andE0_C0 h0] at c1; omega
  rcases t with _ | ⟨b1, t1⟩
  · refine tok8_bad (by simp) (by simp) ?_ (.inl rfl) (by simp)
    intro c hc hp
    rcases enc8_head hc hp with g | g | g | ⟨_, _, b1, b2, b3, t1, g, _⟩
    · omega
    · omega
    · omega
    · cases g
  · have h1 : b1 < 256 := h b1 (by simp)
    dsimp only
    by_cases c4 : isCont b1 = true ∧ first2of4Valid (first2of4 b0 b1) = true
    · rw [if_pos c4]
      have l := leaf4a h0 h1 c4
      have hi : Initial .utf8 lax [b0, b1, 0x80] := by
        have := enc8_4 (b0 := b0) (b1 := b1) (b2 := 0x80) (b3 := 0x80) (by omega)
        exact initial_of_enc
          (c := (((b0 - 0xF0) * 64 + (b1 - 0x80)) * 64 + (0x80 - 0x80)) * 64 + (0x80 - 0x80)) (m := [0x80])
          (scalar_of (by omega) (.inr (by omega))) this
      have hi2 : Initial .utf8 lax [b0, b1] := hi.mono ⟨[0x80], rfl⟩
      rcases t1 with _ | ⟨b2, t2⟩
      · refine tok8_bad (by simp) (by simp) ?_ (.inr hi2) (by simp)
        intro c hc hp
        rcases enc8_head hc hp with g | g | g | ⟨_, _, b1, b2, b3, t1, g, _⟩
        · omega
        · omega
        · omega
        · cases g
      · have h2 : b2 < 256 := h b2 (by simp)
        dsimp only
        by_cases c5 : isCont b2 = true
        · rw [if_pos c5]
          have r2 := (isCont_iff h2).1 c5
          have hi3 : Initial .utf8 lax [b0, b1, b2] := by
            have := enc8_4 (b0 := b0) (b1 := b1) (b2 := b2) (b3 := 0x80) (by omega)
            exact initial_of_enc
              (c := (((b0 - 0xF0) * 64 + (b1 - 0x80)) * 64 + (b2 - 0x80)) * 64 + (0x80 - 0x80)) (m := [0x80])
              (scalar_of (by omega) (.inr (by omega))) this
          rcases t2 with _ | ⟨b3, t3⟩
          · refine tok8_bad (by simp) (by simp) ?_ (.inr hi3) (by simp)
            intro c hc hp
            rcases enc8_head hc hp with g | g | g | ⟨_, _, b1, b2, b3, t1, g, _⟩
            · omega
            · omega
            · omega
            · cases g
          · have h3 : b3 < 256 := h b3 (by simp)
            dsimp only
            by_cases c6 : isCont b3 = true
            · rw [if_pos c6]
              have r3 := (isCont_iff h3).1 c6
              have e : last2of4 (first2of4 b0 b1) b2 b3
                  = (((b0 - 0xF0) * 64 + (b1 - 0x80)) * 64 + (b2 - 0x80)) * 64 + (b3 - 0x80) := by
                rw [last2of4_eq, l.1]; omega
              rw [e]
              refine tok8_ch (scalar_of (by omega) (.inr (by omega))) ?_ (by simp)
              rw [enc8_4 (by omega)]; rfl
            · rw [if_neg c6]
              rw [isCont_iff h3] at c6
              refine tok8_bad (by simp) (by simp) ?_ (.inr hi3) ?_
              · intro c hc hp
                rcases enc8_head hc hp with g | g | g | ⟨_, _, b1, b2, b3, t1, g, _⟩
                · omega
                · omega
                · omega
                · cases g; omega
              · intro _ hi
                have := init8_4 (by simpa using hi); omega
        · rw [if_neg c5]
          rw [isCont_iff h2] at c5
          refine tok8_bad (by simp) (by simp) ?_ (.inr hi2) ?_
          · intro c hc hp
            rcases enc8_head hc hp with g | g | g | ⟨_, _, b1, b2, b3, t1, g, _⟩
            · omega
            · omega
            · omega
            · cases g; omega
          · intro _ hi
            have := init8_3 (by simpa using hi); omega
    · rw [if_neg c4]
      rw [isCont_iff h1, first2of4Valid_iff, first2of4_eq] at c4
      have c4' : ¬ (0xF0 ≤ b0 ∧ b0 < 0xF5 ∧ 0x80 ≤ b1 ∧ b1 < 0xC0 ∧ (b0 = 0xF0 → 0x90 ≤ b1) ∧
          (b0 = 0xF4 → b1 < 0x90)) := by
        intro g; apply c4; rw [(xorF0 h0).1 g.1]; omega
      refine tok8_bad (by simp) (by simp) ?_ (.inl rfl) ?_
      · intro c hc hp
        rcases enc8_head hc hp with g | g | g | ⟨g1, g2, b1, b2, b3, t1, g, _⟩
        · omega
        · omega
        · omega
        · cases g; omega
      · intro _ hi
        have g := init8_2 (by simpa using hi)
        omega

theorem enc16_head {lax : Bool} {c b0 : Nat} {t : List Nat} (hc : Scalar lax c) (h : encode .utf16 c <+: b0 :: t) :
    (c = b0 ∧ c < 0x10000) ∨ (0xD800 ≤ b0 ∧ b0 < 0xDC00 ∧ 0x10000 ≤ c ∧
      ∃ b1 t1, t = b1 :: t1 ∧ 0xDC00 ≤ b1 ∧ b1 < 0xE000) := by
  obtain ⟨hc1, _⟩ := hc
  obtain ⟨s, hs⟩ := h
  simp only [encode] at hs
  split_ifs at hs <;> simp only [List.cons_append, List.nil_append, List.cons.injEq] at hs
  · left; omega
  · right; exact ⟨by omega, by omega, by omega, _, s, hs.2.symm, by omega, by omega⟩

theorem init16_2 {lax : Bool} {b0 b1 : Nat} (h : Initial .utf16 lax [b0, b1]) :
    0xD800 ≤ b0 ∧ b0 < 0xDC00 ∧ 0xDC00 ≤ b1 ∧ b1 < 0xE000 := by
  obtain ⟨c, ⟨hc1, hc2⟩, s, hs⟩ := h
  simp only [encode] at hs
  split_ifs at hs <;>
    simp only [List.cons_append, List.nil_append, List.cons.injEq, reduceCtorEq, and_false] at hs
  omega

theorem dec16_ok {lax : Bool} {b0 : Nat} {t : List Nat} (h : Units .utf16 (b0 :: t)) :
    TokOk .utf16 lax (b0 :: t) (dec16 lax b0 t) := by
  have h0 : b0 < 0x10000 := h b0 (by simp)
  have single : Scalar lax b0 → (∀ b1 t1, t = b1 :: t1 → ¬ (0xD800 ≤ b0 ∧ b0 < 0xDC00 ∧ 0xDC00 ≤ b1 ∧ b1 < 0xE000)) →
      TokOk .utf16 lax (b0 :: t) ⟨.ch b0, 1⟩ := by
    intro hs hn
    have e : encode .utf16 b0 = [b0] := by simp only [encode]; rw [if_pos h0]
    refine ⟨by rw [e]; rfl, hs, by rw [e]; rfl, starts_of_take (n := 1) hs (by rw [e]; rfl) ?_⟩
    intro c' hc' hp
    rcases enc16_head hc' hp with ⟨rfl, _⟩ | ⟨g1, g2, _, b1, t1, g, g3, g4⟩
    · exact Nat.le_refl _
    · exact absurd ⟨g1, g2, g3, g4⟩ (hn _ _ g)
  have lone : IsSurr b0 → (∀ b1 t1, t = b1 :: t1 → ¬ (0xD800 ≤ b0 ∧ b0 < 0xDC00 ∧ 0xDC00 ≤ b1 ∧ b1 < 0xE000)) →
      TokOk .utf16 lax (b0 :: t) (if !lax then ⟨.bad 1, 1⟩ else ⟨.ch b0, 1⟩) := by
    intro hs hn
    cases lax
    · refine ⟨rfl, ?_, maximal_of (by simp) (by simp) (.inl rfl) ?_⟩
      · rintro c ⟨hc, hp, _⟩
        rcases enc16_head hc hp with ⟨rfl, _⟩ | ⟨g1, g2, _, b1, t1, g, g3, g4⟩
        · rcases hc.2 with g | g
          · cases g
          · exact g hs
        · exact absurd ⟨g1, g2, g3, g4⟩ (hn _ _ g)
      · rcases t with _ | ⟨b1, t1⟩
        · simp
        · intro _ hi
          exact hn _ _ rfl (init16_2 (by simpa using hi))
    · exact single ⟨by unfold IsSurr at hs; omega, .inl rfl⟩ hn
  unfold dec16
  dsimp only
  by_cases c0 : isSurrogate b0 = true
  · rw [if_pos c0]
    rw [isSurrogate_iff] at c0
    rcases t with _ | ⟨b1, t1⟩
    · exact lone c0 (by simp)
    · dsimp only
      by_cases c1 : isHigh b0 = true ∧ isLow b1 = true
      · rw [if_pos c1, fromPair_eq]
        rw [isHigh_iff, isLow_iff] at c1
        have e : encode .utf16 (0x10000 + b0 % 1024 * 1024 + b1 % 1024) = [b0, b1] := by
          simp only [encode]; rw [if_neg (by omega)]
          simp only [List.cons.injEq, and_true]; omega
        have hs : Scalar lax (0x10000 + b0 % 1024 * 1024 + b1 % 1024) :=
          scalar_of (by omega) (.inr (by omega))
        refine ⟨by rw [e]; rfl, hs, by rw [e]; rfl, starts_of_take (n := 2) hs (by rw [e]; rfl) ?_⟩
        intro c' _ _
        rw [e]; simp only [encode]; split_ifs <;> simp
      · rw [if_neg c1]
        rw [isHigh_iff, isLow_iff] at c1
        refine lone c0 ?_
        intro b1' t1' g; cases g; omega
  · rw [if_neg c0]
    rw [isSurrogate_iff] at c0
    have c0' : ¬ (0xD800 ≤ b0 ∧ b0 ≤ 0xDFFF) := c0
    exact single ⟨by omega, .inr c0⟩ (fun b1 t1 _ => by omega)

theorem dec32_ok {lax : Bool} {b0 : Nat} {t : List Nat} :
    TokOk .utf32 lax (b0 :: t) (dec32 lax b0 t) := by
  unfold dec32
  split_ifs with c0
  · refine ⟨rfl, ?_, maximal_of (by simp) (by simp) (.inl rfl) ?_⟩
    · rintro c ⟨hc, hp, _⟩
      obtain ⟨s, hs⟩ := hp
      simp only [encode, List.cons_append, List.cons.injEq] at hs
      obtain ⟨rfl, _⟩ := hs
      rcases c0 with g | ⟨g, g2⟩
      · have := hc.1; omega
      · rw [isSurrogate_iff] at g2
        rcases hc.2 with g3 | g3
        · rw [g] at g3; cases g3
        · exact g3 g2
    · rcases t with _ | ⟨b1, t1⟩
      · simp
      · rintro _ ⟨c, _, s, hs⟩
        simp [encode] at hs
  · have hs : Scalar lax b0 := by
      refine ⟨by omega, ?_⟩
      cases lax
      · right; intro g; exact c0 (.inr ⟨rfl, (isSurrogate_iff _).2 g⟩)
      · exact .inl rfl
    exact ⟨rfl, hs, rfl, starts_of_take (n := 1) hs rfl (fun c' _ _ => by simp [encode])⟩

theorem dec_ok {e : Enc} {lax : Bool} {b0 : Nat} {t : List Nat} (h : Units e (b0 :: t)) :
    TokOk e lax (b0 :: t) (dec e lax b0 t) := by
  cases e
  · exact dec8_ok h
  · exact dec16_ok h
  · exact dec32_ok

/-! ## Consequences -/

theorem encode_injective {e : Enc} {lax : Bool} {c c' : Nat} (h : Scalar lax c) (h' : Scalar lax c')
    (he : encode e c = encode e c') : c = c' := by
  obtain ⟨h1, _⟩ := h
  obtain ⟨h2, _⟩ := h'
  cases e <;> simp only [encode] at he
  · split_ifs at he <;> simp only [List.cons.injEq, reduceCtorEq, and_false, and_true] at he <;> omega
  · split_ifs at he <;> simp only [List.cons.injEq, reduceCtorEq, and_false, and_true] at he <;> omega
  · simpa using he

theorem starts_unique {e : Enc} {lax : Bool} {src : List Nat} {c c' : Nat} (h : Starts e lax src c)
    (h' : Starts e lax src c') : c = c' := by
  obtain ⟨h1, h2, h3⟩ := h
  obtain ⟨g1, g2, g3⟩ := h'
  apply encode_injective (e := e) h1 g1
  have l := Nat.le_antisymm (g3 c h1 h2) (h3 c' g1 g2)
  exact (List.prefix_of_prefix_length_le h2 g2 (by omega)).eq_of_length (by omega)

theorem maximal_unique {e : Enc} {lax : Bool} {src : List Nat} {n m : Nat} (h : MaximalSubpart e lax src n)
    (h' : MaximalSubpart e lax src m) : n = m := by
  obtain ⟨a1, a2, a3, a4⟩ := h
  obtain ⟨b1, b2, b3, b4⟩ := h'
  rcases Nat.lt_trichotomy n m with g | g | g
  · rcases b3 with b3 | b3
    · omega
    · exact absurd b3 (a4 m g b2)
  · exact g
  · rcases a3 with a3 | a3
    · omega
    · exact absurd a3 (b4 n g a2)

theorem parses_unique {e : Enc} {lax : Bool} {src : List Nat} {i j : List Item} (h : Parses e lax src i)
    (h' : Parses e lax src j) : i = j := by
  induction h generalizing j with
  | nil =>
    cases h' with
    | nil => rfl
    | ch hs _ => exact absurd (List.prefix_nil.1 hs.2.1) (encode_ne_nil _ _)
    | bad hn => exact absurd rfl hn
  | ch hs _ ih =>
    cases h' with
    | nil => exact absurd (List.prefix_nil.1 hs.2.1) (encode_ne_nil _ _)
    | ch hs' hp' => cases starts_unique hs hs'; rw [ih hp']
    | bad _ hno => exact absurd hs (hno _)
  | bad hn hno hm _ ih =>
    cases h' with
    | nil => exact absurd rfl hn
    | ch hs' _ => exact absurd hs' (hno _)
    | bad _ _ hm' hp' => cases maximal_unique hm hm'; rw [ih hp']

end Strf.Utf

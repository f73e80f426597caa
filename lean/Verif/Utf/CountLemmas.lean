import Verif.Utf.ModelSize
import Verif.Utf.UnsafeLemmas
/-! # count_codepoints and count_codepoints_fast -/
namespace Strf.Utf

theorem countStep8_eq {ch : Nat} {t : List Nat} (h : Units .utf8 (ch :: t)) :
    countStep8 ch t = t.drop ((dec .utf8 false ch t).n - 1) := by
  have hb : ch < 256 := h ch (by simp)
  show countStep8 ch t = t.drop ((dec8 false ch t).n - 1)
  unfold countStep8 dec8
  by_cases h1 : ch < 0x80
  · rw [if_pos h1, if_neg (by rw [andE0_C0 hb]; omega), if_neg (by omega), if_neg (by rw [andF0_E0 hb]; omega)]
    rcases t with _ | ⟨b1, t⟩
    · rfl
    · dsimp only
      rw [if_neg]
      · rfl
      · rw [first2of4Valid_iff, first2of4_eq]
        have := (xorF0 hb).2 (by omega)
        omega
  · rw [if_neg h1]
    split_ifs
    all_goals
      rcases t with _ | ⟨b1, _ | ⟨b2, _ | ⟨b3, t⟩⟩⟩ <;> dsimp only <;> (try split_ifs) <;> rfl

theorem countStep16_eq {ch : Nat} {t : List Nat} : countStep16 ch t = t.drop ((dec .utf16 false ch t).n - 1) := by
  show countStep16 ch t = t.drop ((dec16 false ch t).n - 1)
  unfold countStep16 dec16
  by_cases h : isSurrogate ch = true
  · simp only [h, if_true]
    rcases t with _ | ⟨b1, t⟩
    · rfl
    · dsimp only; split_ifs <;> rfl
  · simp only [h]
    have hh : ¬ isHigh ch = true := fun g => h (isHigh_isSurrogate g)
    rcases t with _ | ⟨b1, t⟩
    · rfl
    · simp [hh]

theorem extent_take_succ {e : Enc} {i : Item} {is : List Item} {n : Nat} :
    extent e ((i :: is).take (n + 1)) = i.size e + extent e (is.take n) := rfl

theorem countLoop_eq {e : Enc} {step : Nat → List Nat → List Nat}
    (hs : ∀ ch t, Units e (ch :: t) → step ch t = t.drop ((dec e false ch t).n - 1))
    (count m : Nat) (src : List Nat) (h : Units e src) :
    countLoop step count m src = some (count + min (m - count) (items e false src).length,
      src.drop (extent e ((items e false src).take (m - count)))) := by
  induction hn : src.length using Nat.strongRecOn generalizing src count with
  | _ n ih =>
    subst hn
    rcases src with _ | ⟨ch, t⟩
    · unfold countLoop items; simp
    · unfold countLoop
      by_cases hc : count < m
      · rw [if_pos hc]
        have ok := dec_ok (lax := false) h
        have hp := ok.n_pos
        have hle : (step ch t).length ≤ t.length := by rw [hs ch t h]; simp
        rw [dif_pos hle]
        have hu : Units e (step ch t) := by rw [hs ch t h]; exact h.tail.drop _
        rw [ih (step ch t).length (by simp; omega) (count + 1) _ hu rfl]
        conv_rhs => unfold items
        obtain ⟨k, hk⟩ : ∃ k, m - count = k + 1 := ⟨m - count - 1, by omega⟩
        rw [hk, extent_take_succ, show m - (count + 1) = k by omega, hs ch t h, ← ok.n_eq, ← List.drop_drop,
          drop_cons_pred hp]
        simp only [List.length_cons]
        rw [show count + 1 + min k (items e false (List.drop ((dec e false ch t).n - 1) t)).length =
          count + min (k + 1) ((items e false (List.drop ((dec e false ch t).n - 1) t)).length + 1) by omega]
      · rw [if_neg hc, show m - count = 0 by omega]
        simp [extent]

theorem items32_length (lax : Bool) (src : List Nat) : (items .utf32 lax src).length = src.length := by
  induction src with
  | nil => unfold items; rfl
  | cons a l ih =>
    unfold items
    have : (dec .utf32 lax a l).n = 1 := by show (dec32 lax a l).n = 1; unfold dec32; split_ifs <;> rfl
    rw [this]; simp [ih]

theorem items32_extent (lax : Bool) (src : List Nat) (n : Nat) :
    extent .utf32 ((items .utf32 lax src).take n) = min n src.length := by
  induction src generalizing n with
  | nil => unfold items; simp [extent]
  | cons a l ih =>
    unfold items
    have : (dec .utf32 lax a l).n = 1 ∧ (dec .utf32 lax a l).item.size .utf32 = 1 := by
      show (dec32 lax a l).n = 1 ∧ (dec32 lax a l).item.size .utf32 = 1; unfold dec32; split_ifs <;> exact ⟨rfl, rfl⟩
    rw [this.1]
    cases n with
    | zero => simp [extent]
    | succ n => rw [extent_take_succ, this.2]; simp [ih]; omega

theorem countCodepoints_eq (e : Enc) (m : Nat) (src : List Nat) (h : Units e src) :
    countCodepoints e m src = some (min m (items e false src).length,
      src.drop (extent e ((items e false src).take m))) := by
  cases e
  · show countLoop countStep8 0 m src = _
    have := countLoop_eq (e := .utf8) (fun ch t h => countStep8_eq h) 0 m src h
    simpa using this
  · show countLoop countStep16 0 m src = _
    have := countLoop_eq (e := .utf16) (fun ch t _ => countStep16_eq) 0 m src h
    simpa using this
  · show count32 m src = _
    unfold count32
    rw [items32_length, items32_extent]
    split_ifs with c
    · rw [Nat.min_eq_left c]
    · rw [Nat.min_eq_right (by omega)]; simp

/-! ## The fast variants on well-formed text -/

theorem enc8_shape {c : Nat} (h : c < 0x110000) :
    ∃ a l, encode .utf8 c = a :: l ∧ isCont a = false ∧ ∀ u ∈ l, isCont u = true := by
  have nc : ∀ a, a < 256 → ¬ (0x80 ≤ a ∧ a < 0xC0) → isCont a = false := by
    intro a ha hn
    rw [← isCont_iff ha] at hn
    simpa using hn
  simp only [encode]
  split_ifs with h1 h2 h3
  · exact ⟨_, _, rfl, nc _ (by omega) (by omega), by simp⟩
  · refine ⟨_, _, rfl, nc _ (by omega) (by omega), ?_⟩
    intro u hu; simp at hu; subst hu; exact isCont_tail _ (by omega)
  · refine ⟨_, _, rfl, nc _ (by omega) (by omega), ?_⟩
    intro u hu; simp at hu; rcases hu with rfl | rfl <;> exact isCont_tail _ (by omega)
  · refine ⟨_, _, rfl, nc _ (by omega) (by omega), ?_⟩
    intro u hu; simp at hu; rcases hu with rfl | rfl | rfl <;> exact isCont_tail _ (by omega)

theorem countFast8_conts {count m : Nat} (hc : count < m) (l rest : List Nat) (hl : ∀ u ∈ l, isCont u = true) :
    countFast8 count m (l ++ rest) = countFast8 count m rest := by
  induction l with
  | nil => rfl
  | cons a l ih =>
    rw [List.cons_append]
    conv_lhs => unfold countFast8
    rw [if_pos hc, if_pos (hl a (by simp)), ih fun u hu => hl u (by simp [hu])]

theorem skipCont_conts (l rest : List Nat) (hl : ∀ u ∈ l, isCont u = true) :
    skipCont (l ++ rest) = skipCont rest := by
  induction l with
  | nil => rfl
  | cons a l ih =>
    rw [List.cons_append]
    conv_lhs => unfold skipCont
    rw [if_pos (hl a (by simp)), ih fun u hu => hl u (by simp [hu])]

theorem skipCont_flat (cs : List Nat) (h : ∀ c ∈ cs, c < 0x110000) :
    skipCont (cs.flatMap (encode .utf8)) = cs.flatMap (encode .utf8) := by
  rcases cs with _ | ⟨c, cs⟩
  · rfl
  · obtain ⟨a, l, e, ha, _⟩ := enc8_shape (h c (by simp))
    rw [List.flatMap_cons, e, List.cons_append]
    unfold skipCont
    simp [ha]

theorem countFast8_stop {count m : Nat} (hc : ¬ count < m) (src : List Nat) : countFast8 count m src = (count, src) := by
  cases src with
  | nil => rfl
  | cons a l => unfold countFast8; rw [if_neg hc]

theorem countFast8_flat (cs : List Nat) (h : ∀ c ∈ cs, c < 0x110000) (count m : Nat) :
    (countFast8 count m (cs.flatMap (encode .utf8))).1 = count + min (m - count) cs.length ∧
    skipCont (countFast8 count m (cs.flatMap (encode .utf8))).2 = (cs.drop (m - count)).flatMap (encode .utf8) := by
  induction cs generalizing count with
  | nil => simp [countFast8, skipCont]
  | cons c cs ih =>
    by_cases hc : count < m
    · obtain ⟨a, l, e, ha, hl⟩ := enc8_shape (h c (by simp))
      obtain ⟨k, hk⟩ : ∃ k, m - count = k + 1 := ⟨m - count - 1, by omega⟩
      have ih := ih (fun c hc => h c (by simp [hc])) (count + 1)
      rw [show m - (count + 1) = k by omega] at ih
      rw [List.flatMap_cons, e, List.cons_append, hk]
      unfold countFast8
      rw [if_pos hc, if_neg (by simp [ha])]
      by_cases hc2 : count + 1 < m
      · rw [countFast8_conts hc2 _ _ hl]
        refine ⟨?_, ih.2⟩
        rw [ih.1]; simp only [List.length_cons]; omega
      · have hk0 : k = 0 := by omega
        rw [countFast8_stop hc2]
        refine ⟨?_, ?_⟩
        · simp [hk0]
        · show skipCont (l ++ _) = _
          rw [skipCont_conts _ _ hl, skipCont_flat _ (fun c hc => h c (by simp [hc])), hk0]; rfl
    · rw [countFast8_stop hc, show m - count = 0 by omega]
      exact ⟨by simp, skipCont_flat _ h⟩

theorem countFast16_stop {count m : Nat} (hc : ¬ count < m) (src : List Nat) : countFast16 count m src = (count, src) := by
  cases src with
  | nil => unfold countFast16; rfl
  | cons a l => unfold countFast16; rw [if_neg hc]

theorem countFast16_flat (cs : List Nat) (h : ∀ c ∈ cs, Scalar false c) (count m : Nat) :
    countFast16 count m (cs.flatMap (encode .utf16)) =
      (count + min (m - count) cs.length, (cs.drop (m - count)).flatMap (encode .utf16)) := by
  induction cs generalizing count with
  | nil => simp [countFast16]
  | cons c cs ih =>
    by_cases hc : count < m
    · obtain ⟨k, hk⟩ : ∃ k, m - count = k + 1 := ⟨m - count - 1, by omega⟩
      have ih := ih (fun c hc => h c (by simp [hc])) (count + 1)
      rw [show m - (count + 1) = k by omega] at ih
      have hsc := h c (by simp)
      have hc1 := hsc.1
      have hc2 : ¬ IsSurr c := by rcases hsc.2 with g | g; cases g; exact g
      unfold IsSurr at hc2
      rw [List.flatMap_cons, hk]
      simp only [List.length_cons, List.drop_succ_cons]
      rw [show count + min (k + 1) (cs.length + 1) = count + 1 + min k cs.length by omega, ← ih]
      simp only [encode]
      split_ifs with hb
      · rw [List.singleton_append]
        conv_lhs => unfold countFast16
        rw [if_pos hc, if_neg]
        rw [isHigh_iff]; omega
      · rw [List.cons_append, List.singleton_append]
        conv_lhs => unfold countFast16
        rw [if_pos hc, if_pos]
        rw [isHigh_iff]; omega
    · rw [countFast16_stop hc, show m - count = 0 by omega]; simp

theorem extent_map_ch (e : Enc) (cs : List Nat) :
    extent e (cs.map Item.ch) = (cs.flatMap (encode e)).length := by
  induction cs with
  | nil => rfl
  | cons c cs ih => simp [extent, Item.size, ih]

theorem drop_flatMap (e : Enc) (cs : List Nat) (n : Nat) :
    (cs.flatMap (encode e)).drop (extent e ((cs.map Item.ch).take n)) = (cs.drop n).flatMap (encode e) := by
  rw [← List.map_take, extent_map_ch]
  conv_lhs => rw [← List.take_append_drop n cs, List.flatMap_append]
  rw [List.take_append_drop, List.drop_left]

theorem countFast_eq (e : Enc) (m : Nat) (cs : List Nat) (h : ∀ c ∈ cs, Scalar false c) :
    countCodepointsFast e m (cs.flatMap (encode e)) = some (min m cs.length, (cs.drop m).flatMap (encode e)) := by
  cases e
  · have := countFast8_flat cs (fun c hc => scalar_lt (h c hc)) 0 m
    simp only [countCodepointsFast, this.1, this.2]
    simp
  · simp only [countCodepointsFast, countFast16_flat cs h]
    simp
  · have hid : ∀ l : List Nat, l.flatMap (encode .utf32) = l := by
      intro l
      induction l with
      | nil => rfl
      | cons a l ih => rw [List.flatMap_cons, ih]; rfl
    show count32 m _ = _
    rw [hid, hid]
    unfold count32
    split_ifs with c
    · rw [Nat.min_eq_left c]
    · rw [Nat.min_eq_right (by omega), List.drop_eq_nil_of_le (by omega)]

end Strf.Utf

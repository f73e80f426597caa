import Verif.IntDigits.CountLemmas
import Verif.Numpunct.CreatorLemmas
/-
Lemmas: writing digits backwards, with and without separators.
-/
namespace Strf.IntDigits
open Spec Strf.Numpunct Strf.Numpunct.Spec

/-- the digits' characters, least significant first -/
def rtext (b : Nat) (lc : Lettercase) (v : Nat) : List Nat := (text b lc v).reverse

theorem rtext_lt (b : Nat) (lc : Lettercase) (v : Nat) (h : v < b) : rtext b lc v = [digitChar lc v] := by
  unfold rtext text numeral
  by_cases hv : v = 0
  · subst hv; rfl
  · rw [if_neg hv, Nat.digits_of_lt b v hv h]; rfl

theorem rtext_ge (b : Nat) (hb : 1 < b) (lc : Lettercase) (v : Nat) (h : b ≤ v) :
    rtext b lc v = digitChar lc (v % b) :: rtext b lc (v / b) := by
  unfold rtext text numeral
  have h1 : v ≠ 0 := by omega
  have h2 : v / b ≠ 0 := by
    have := (Nat.le_div_iff_mul_le (k := b) (x := 1) (y := v) (by omega)).mpr (by omega)
    omega
  rw [if_neg h1, if_neg h2, Nat.digits_def' hb (by omega)]
  simp

theorem rtext_ne_nil (b : Nat) (lc : Lettercase) (v : Nat) (hb : 1 < b) : rtext b lc v ≠ [] := by
  by_cases h : v < b
  · rw [rtext_lt b lc v h]; simp
  · rw [rtext_ge b hb lc v (by omega)]; simp

theorem rtext_length (b : Nat) (lc : Lettercase) (v : Nat) : (rtext b lc v).length = (numeral b v).length := by
  simp [rtext, text]

theorem rtext_reverse (b : Nat) (lc : Lettercase) (v : Nat) : (rtext b lc v).reverse = text b lc v := by
  simp [rtext]

theorem digitChar_dec (lc : Lettercase) (d : Nat) (h : d < 10) : digitChar lc d = 48 + d := by
  simp [digitChar, h]

theorem arr_spec : ∀ k : Fin 100, chars00to99.getD (k.1 * 2) 0 = 48 + k.1 / 10 ∧
    chars00to99.getD (k.1 * 2 + 1) 0 = 48 + k.1 % 10 := by decide +kernel

theorem arr_ok (lc : Lettercase) (k : Nat) (h : k < 100) :
    chars00to99.getD (k * 2) 0 = digitChar lc (k / 10) ∧ chars00to99.getD (k * 2 + 1) 0 = digitChar lc (k % 10) := by
  rw [digitChar_dec lc _ (by omega), digitChar_dec lc _ (by omega)]
  exact arr_spec ⟨k, h⟩

theorem rtext_ge100 (lc : Lettercase) (v : Nat) (h : 100 ≤ v) :
    rtext 10 lc v = digitChar lc (v % 100 % 10) :: digitChar lc (v % 100 / 10) :: rtext 10 lc (v / 100) := by
  rw [rtext_ge 10 (by decide) lc v (by omega), rtext_ge 10 (by decide) lc (v / 10) (by omega)]
  rw [show v % 100 % 10 = v % 10 by omega, show v % 100 / 10 = v / 10 % 10 by omega,
    show v / 100 = v / 10 / 10 by omega]

theorem rtext_two (lc : Lettercase) (v : Nat) (h : 10 ≤ v) (h2 : v < 100) :
    rtext 10 lc v = [digitChar lc (v % 10), digitChar lc (v / 10)] := by
  rw [rtext_ge 10 (by decide) lc v h, rtext_lt 10 lc (v / 10) (by omega)]

theorem back10_ok (lc : Lettercase) (v : Nat) (acc : List Nat) : back10 v acc = text 10 lc v ++ acc := by
  rw [← rtext_reverse]
  induction v using Nat.strongRecOn generalizing acc with
  | _ v ih =>
    rw [back10]
    by_cases h : v > 99
    · rw [dif_pos h, rtext_ge100 lc v (by omega), ih _ (by omega)]
      obtain ⟨a1, a2⟩ := arr_ok lc (v % 100) (by omega)
      rw [a1, a2]; simp
    · rw [dif_neg h]
      by_cases h2 : v < 10
      · rw [if_pos h2, rtext_lt 10 lc v h2, digitChar_dec lc v h2]; rfl
      · rw [if_neg h2, rtext_two lc v (by omega) (by omega)]
        obtain ⟨a1, a2⟩ := arr_ok lc v (by omega)
        dsimp only
        rw [a1, a2]; simp

theorem hexChar_ok (lc : Lettercase) (d : Nat) : hexChar lc d = digitChar lc d := by
  unfold hexChar digitChar offsetDigitA
  by_cases h : d < 10
  · simp [h]
  · cases lc <;> simp [h] <;> omega

theorem back16_ok (lc : Lettercase) (v : Nat) (acc : List Nat) : back16 lc v acc = text 16 lc v ++ acc := by
  rw [← rtext_reverse]
  induction v using Nat.strongRecOn generalizing acc with
  | _ v ih =>
    rw [back16]
    by_cases h : v > 0xF
    · rw [dif_pos h, rtext_ge 16 (by decide) lc v (by omega), ih _ (by omega), hexChar_ok]; simp
    · rw [dif_neg h, rtext_lt 16 lc v (by omega), hexChar_ok, Nat.mod_eq_of_lt (by omega)]; rfl

theorem back8_ok (lc : Lettercase) (v : Nat) (acc : List Nat) : back8 v acc = text 8 lc v ++ acc := by
  rw [← rtext_reverse]
  induction v using Nat.strongRecOn generalizing acc with
  | _ v ih =>
    rw [back8]
    by_cases h : v > 7
    · rw [dif_pos h, rtext_ge 8 (by decide) lc v (by omega), ih _ (by omega), digitChar_dec lc _ (by omega)]; simp
    · rw [dif_neg h, rtext_lt 8 lc v (by omega), digitChar_dec lc _ (by omega)]; rfl

/-! ### with separators: one digit at a time -/

/-- what the backwards writers store after `before` digits more of the current group, least significant first -/
def emit (sep : Nat) : Nat → Nat → List Nat → List Nat
  | _, _, [] => []
  | _, _, [d] => [d]
  | w, before, d :: e :: ds =>
    if before ≠ 1 then d :: emit sep w (before - 1) (e :: ds)
    else d :: sep :: (if isFinal w then e :: ds
      else emit sep (nextGit w) (current (nextGit w)) (e :: ds))

/-- a word on a group of a constructed grouping -/
def OnGroup (w : Nat) : Prop := ∃ rep g gs, w = enc rep (g :: gs) ∧ ∀ x ∈ g :: gs, 1 ≤ x ∧ x ≤ 31

theorem OnGroup.current {w : Nat} (h : OnGroup w) : 1 ≤ current w := by
  obtain ⟨rep, g, gs, rfl, hg⟩ := h
  have := hg g (by simp)
  rw [current_enc rep g gs this.2]; exact this.1

theorem OnGroup.next {w : Nat} (h : OnGroup w) : OnGroup (nextGit w) := by
  obtain ⟨rep, g, gs, rfl, hg⟩ := h
  have h1 := hg g (by simp)
  unfold nextGit
  rw [isLast_enc rep g gs hg, advance_enc rep g gs h1.2]
  cases gs with
  | nil => exact ⟨rep, g, [], rfl, hg⟩
  | cons g2 gs => exact ⟨rep, g2, gs, rfl, fun x hx => hg x (by simp [hx])⟩

theorem emit_cons (sep w before d : Nat) (ds : List Nat) (h : ds ≠ []) :
    emit sep w before (d :: ds) = if before ≠ 1 then d :: emit sep w (before - 1) ds
      else d :: sep :: (if isFinal w then ds else emit sep (nextGit w) (current (nextGit w)) ds) := by
  cases ds with
  | nil => exact absurd rfl h
  | cons e ds => rw [emit]

theorem tail10_ok (lc : Lettercase) (v : Nat) (hv : v ≠ 0) (acc : List Nat) :
    tail10 v acc = (rtext 10 lc v).reverse ++ acc := by
  induction v using Nat.strongRecOn generalizing acc with
  | _ v ih =>
    rw [tail10]
    by_cases h : v > 9
    · rw [dif_pos h]
      obtain ⟨a1, a2⟩ := arr_ok lc (v % 100) (by omega)
      dsimp only
      rw [a1, a2]
      by_cases h2 : v < 100
      · rw [rtext_two lc v (by omega) h2, show v / 100 = 0 by omega, tail10]
        simp [Nat.mod_eq_of_lt h2]
      · rw [ih _ (by omega) (by omega), rtext_ge100 lc v (by omega)]; simp
    · rw [dif_neg h, if_pos hv, rtext_lt 10 lc v (by omega), digitChar_dec lc v (by omega)]; rfl

theorem little10_ok (lc : Lettercase) (sep v w before : Nat) (hw : OnGroup w) (hb : 1 ≤ before) (acc : List Nat) :
    little10 sep v w before acc = (emit sep w before (rtext 10 lc v)).reverse ++ acc := by
  induction v using Nat.strongRecOn generalizing w before acc with
  | _ v ih =>
    rw [little10]
    by_cases h : v < 10
    · rw [dif_pos h, rtext_lt 10 lc v h, digitChar_dec lc v h]; rfl
    · rw [dif_neg h]
      obtain ⟨a1, a2⟩ := arr_ok lc (v % 100) (by omega)
      have hlt : v / 100 < v := by omega
      have hn := hw.next
      have hnn := hn.next
      have e0 : rtext 10 lc v = digitChar lc (v % 100 % 10) :: rtext 10 lc (v / 10) := by
        rw [rtext_ge 10 (by decide) lc v (by omega), show v % 100 % 10 = v % 10 by omega]
      have ne1 : rtext 10 lc (v / 10) ≠ [] := rtext_ne_nil 10 lc _ (by decide)
      have ne2 : rtext 10 lc (v / 100) ≠ [] := rtext_ne_nil 10 lc _ (by decide)
      dsimp only
      rw [a1, a2, e0, emit_cons sep w before _ _ ne1]
      by_cases hz : v / 100 = 0
      · have e1 : rtext 10 lc (v / 10) = [digitChar lc (v % 100 / 10)] := by
          rw [rtext_lt 10 lc (v / 10) (by omega), show v % 100 / 10 = v / 10 by omega]
        rw [e1]
        simp only [hz, if_true]
        by_cases hb2 : before ≥ 2
        · rw [if_pos hb2, if_pos (by omega)]
          simp [emit]
        · rw [if_neg hb2, if_neg (by omega)]
          by_cases hf : isFinal w
          · simp [hf]
          · simp [hf, emit]
      · have e1 : rtext 10 lc (v / 10) = digitChar lc (v % 100 / 10) :: rtext 10 lc (v / 100) := by
          rw [rtext_ge 10 (by decide) lc (v / 10) (by omega), show v % 100 / 10 = v / 10 % 10 by omega,
            show v / 100 = v / 10 / 10 by omega]
        rw [e1]
        simp only [hz, if_false]
        by_cases hb2 : before ≥ 2
        · rw [if_pos hb2, if_pos (show before ≠ 1 by omega), emit_cons _ _ _ _ _ ne2]
          by_cases hb3 : before = 2
          · subst hb3
            simp only [ne_eq, not_true_eq_false, if_false]
            by_cases hf : isFinal w = true
            · rw [if_pos hf, tail10_ok lc _ hz]
              simp [hf]
            · rw [if_neg hf, ih _ hlt _ _ hn hn.current]
              simp [hf]
          · rw [if_pos hb3, ih _ hlt _ _ hw (by omega), if_pos (show before - 1 ≠ 1 by omega)]
            simp [show before - 1 - 1 = before - 2 by omega]
        · have hb1 : before = 1 := by omega
          subst hb1
          rw [if_neg hb2]
          simp only [ne_eq, not_true_eq_false, if_false]
          by_cases hf : isFinal w = true
          · rw [if_pos hf, tail10_ok lc _ hz]
            simp [hf]
          · have hc := hn.current
            rw [if_neg hf, if_neg hf, emit_cons _ _ _ _ _ ne2]
            by_cases hc1 : current (nextGit w) = 1
            · rw [if_pos (show current (nextGit w) - 1 = 0 by omega)]
              simp only [hc1, ne_eq, not_true_eq_false, if_false]
              by_cases hf2 : isFinal (nextGit w) = true
              · rw [if_pos hf2, tail10_ok lc _ hz]
                simp [hf2]
              · rw [if_neg hf2, ih _ hlt _ _ hnn hnn.current]
                simp [hf2]
            · rw [if_neg (show ¬ current (nextGit w) - 1 = 0 by omega), if_pos hc1, ih _ hlt _ _ hn (by omega)]
              simp

theorem tail16_ok (lc : Lettercase) (v : Nat) (acc : List Nat) :
    tail16 lc v acc = (rtext 16 lc v).reverse ++ acc := by
  induction v using Nat.strongRecOn generalizing acc with
  | _ v ih =>
    rw [tail16]
    try dsimp only
    rw [hexChar_ok]
    by_cases h : v / 16 ≠ 0
    · rw [dif_pos h, ih _ (by omega), rtext_ge 16 (by decide) lc v (by omega)]; simp
    · rw [dif_neg h, rtext_lt 16 lc v (by omega), Nat.mod_eq_of_lt (by omega)]; rfl

theorem emit_single (sep w before d : Nat) : emit sep w before [d] = [d] := by rw [emit]

theorem little16_ok (lc : Lettercase) (sep v w before : Nat) (hv : 0xF < v) (hw : OnGroup w) (hb : 1 ≤ before)
    (acc : List Nat) :
    little16 lc sep v w before acc = (emit sep w before (rtext 16 lc v)).reverse ++ acc := by
  induction v using Nat.strongRecOn generalizing w before acc with
  | _ v ih =>
    have ne1 : rtext 16 lc (v / 16) ≠ [] := rtext_ne_nil 16 lc _ (by decide)
    have hn := hw.next
    rw [little16]
    try dsimp only
    rw [hexChar_ok, rtext_ge 16 (by decide) lc v (by omega), emit_cons _ _ _ _ _ ne1]
    by_cases hb1 : before ≠ 1
    · rw [if_pos hb1, if_pos hb1]
      by_cases hs : v / 16 > 0xF
      · rw [dif_pos hs, ih _ (by omega) _ _ hs hw (by omega)]; simp
      · rw [dif_neg hs, tail16_ok, rtext_lt 16 lc (v / 16) (by omega), emit_single]; simp
    · rw [if_neg hb1, if_neg hb1]
      by_cases hf : isFinal w = true
      · rw [if_pos hf, tail16_ok, if_pos hf]; simp
      · rw [if_neg hf, if_neg hf]
        by_cases hs : v / 16 > 0xF
        · rw [dif_pos hs, ih _ (by omega) _ _ hs hn hn.current]; simp
        · rw [dif_neg hs, tail16_ok, rtext_lt 16 lc (v / 16) (by omega), emit_single]; simp

theorem tail8_ok (lc : Lettercase) (v : Nat) (acc : List Nat) : tail8 v acc = (rtext 8 lc v).reverse ++ acc := by
  induction v using Nat.strongRecOn generalizing acc with
  | _ v ih =>
    rw [tail8]
    try dsimp only
    rw [← digitChar_dec lc (v % 8) (by omega)]
    by_cases h : v / 8 ≠ 0
    · rw [dif_pos h, ih _ (by omega), rtext_ge 8 (by decide) lc v (by omega)]; simp
    · rw [dif_neg h, rtext_lt 8 lc v (by omega), Nat.mod_eq_of_lt (by omega)]; rfl

theorem little8_ok (lc : Lettercase) (sep v w before : Nat) (hw : OnGroup w) (hb : 1 ≤ before) (acc : List Nat) :
    little8 sep v w before acc = (emit sep w before (rtext 8 lc v)).reverse ++ acc := by
  induction v using Nat.strongRecOn generalizing w before acc with
  | _ v ih =>
    have ne1 : rtext 8 lc (v / 8) ≠ [] := rtext_ne_nil 8 lc _ (by decide)
    have hn := hw.next
    rw [little8]
    try dsimp only
    rw [← digitChar_dec lc (v % 8) (by omega)]
    by_cases hz : v / 8 = 0
    · rw [dif_pos hz, rtext_lt 8 lc v (by omega), emit_single, Nat.mod_eq_of_lt (by omega)]; rfl
    · rw [dif_neg hz, rtext_ge 8 (by decide) lc v (by omega), emit_cons _ _ _ _ _ ne1]
      by_cases hb1 : before ≠ 1
      · rw [if_pos hb1, if_pos hb1, ih _ (by omega) _ _ hw (by omega)]; simp
      · rw [if_neg hb1, if_neg hb1]
        by_cases hf : isFinal w = true
        · rw [if_pos hf, tail8_ok lc, if_pos hf]; simp
        · rw [if_neg hf, if_neg hf, ih _ (by omega) _ _ hn hn.current]; simp

/-! ### the stored digits are the groups -/

theorem emit_peel (sep w r : Nat) (hr : 1 ≤ r) (ds : List Nat) :
    emit sep w r ds = if ds.length ≤ r then ds
      else ds.take r ++ sep :: (if isFinal w then ds.drop r
        else emit sep (nextGit w) (current (nextGit w)) (ds.drop r)) := by
  induction ds generalizing r with
  | nil => simp [emit]
  | cons d ds ih =>
    by_cases hne : ds = []
    · subst hne; rw [emit_single, if_pos (by simpa using hr)]
    · rw [emit_cons _ _ _ _ _ hne]
      have hl : 1 ≤ ds.length := List.length_pos_iff.mpr hne
      by_cases h1 : r ≠ 1
      · rw [if_pos h1, ih (r - 1) (by omega)]
        obtain ⟨r, rfl⟩ : ∃ k, r = k + 1 := ⟨r - 1, by omega⟩
        rw [Nat.add_sub_cancel]
        by_cases hle : ds.length ≤ r
        · rw [if_pos hle, if_pos (by simp; omega)]
        · have hn : ¬ (d :: ds).length ≤ r + 1 := by simp; omega
          rw [if_neg hle, if_neg hn]; simp
      · have : r = 1 := by omega
        subst this
        have hn : ¬ (d :: ds).length ≤ 1 := by simp; omega
        rw [if_neg h1, if_neg hn]
        simp

theorem intercalate_cons {α : Type} (sep : List α) (x : List α) (xs : List (List α)) (h : xs ≠ []) :
    List.intercalate sep (x :: xs) = x ++ sep ++ List.intercalate sep xs := by
  cases xs with
  | nil => exact absurd rfl h
  | cons y ys => simp [List.intercalate, List.intersperse]

theorem intercalate_single {α : Type} (sep x : List α) : List.intercalate sep [x] = x := by
  simp [List.intercalate]

theorem chop_ne_nil {α : Type} (ns : List Nat) (ds : List α) (h : ns ≠ []) : chop ns ds ≠ [] := by
  cases ns with
  | nil => exact absurd rfl h
  | cons n ns => simp [chop]

theorem splitFrom_ne_nil (gs : List Nat) (rep : Bool) (fuel i n : Nat) : splitFrom gs rep fuel i n ≠ [] := by
  have := splitFrom_length_pos gs rep fuel i n
  intro h; rw [h] at this; simp at this

theorem emit_groups (sep : Nat) (rep : Bool) (fuel : Nat) : ∀ (g : Nat) (gs ds : List Nat),
    (∀ x ∈ g :: gs, 1 ≤ x ∧ x ≤ 31) → ds.length ≤ fuel → ds ≠ [] →
    emit sep (enc rep (g :: gs)) g ds = grouped [sep] (splitFrom (g :: gs) rep fuel 0 ds.length) ds := by
  induction fuel with
  | zero => intro g gs ds _ h hne; have := List.length_pos_iff.mpr hne; omega
  | succ fuel ih =>
    intro g gs ds hg hl hne
    have h1 := hg g (by simp)
    rw [emit_peel _ _ _ h1.1]
    unfold grouped
    have hs0 : groupSize (g :: gs) rep 0 = some g := by simp [groupSize]
    by_cases hle : ds.length ≤ g
    · rw [if_pos hle]
      simp only [splitFrom, hs0, hle, if_true, chop, List.take_length, intercalate_single]
    · rw [if_neg hle, isFinal_enc rep g gs hg]
      have hdl : (ds.drop g).length = ds.length - g := List.length_drop
      have hdne : ds.drop g ≠ [] := by
        intro h; rw [h] at hdl; simp at hdl; omega
      cases gs with
      | nil =>
        cases rep
        · rw [splitFrom_cons g [] false (Or.inr rfl), if_neg hle, splitFrom_nil, chop,
            intercalate_cons _ _ _ (by simp [chop]), chop, chop, intercalate_single, ← hdl, List.take_length]
          simp
        · rw [splitFrom_single, if_neg hle, chop, intercalate_cons _ _ _ (chop_ne_nil _ _ (splitFrom_ne_nil _ _ _ _ _))]
          have hn : nextGit (enc true [g]) = enc true [g] := by
            unfold nextGit; rw [isLast_enc true g [] hg]; rfl
          rw [hn, current_enc true g [] h1.2, ih g [] (ds.drop g) hg (by omega) hdne, hdl]
          simp [grouped]
      | cons g2 gs =>
        rw [splitFrom_cons g (g2 :: gs) rep (Or.inl (by simp)), if_neg hle, chop,
          intercalate_cons _ _ _ (chop_ne_nil _ _ (splitFrom_ne_nil _ _ _ _ _))]
        have hg' : ∀ x ∈ g2 :: gs, 1 ≤ x ∧ x ≤ 31 := fun x hx => hg x (by simp [hx])
        have hn : nextGit (enc rep (g :: g2 :: gs)) = enc rep (g2 :: gs) := by
          unfold nextGit; rw [isLast_enc rep g _ hg, advance_enc rep g _ h1.2]; rfl
        rw [hn, current_enc rep g2 gs (hg' g2 (by simp)).2, ih g2 gs (ds.drop g) hg' (by omega) hdne, hdl]
        simp [grouped]

/-! ### reversing -/

theorem chop_append {α : Type} (ns ms : List Nat) (xs : List α) :
    chop (ns ++ ms) xs = chop ns xs ++ chop ms (xs.drop ns.sum) := by
  induction ns generalizing xs with
  | nil => simp [chop]
  | cons n ns ih => simp [chop, ih, List.drop_drop]

theorem chop_prefix {α : Type} (ns : List Nat) (xs ys : List α) (h : ns.sum ≤ xs.length) :
    chop ns (xs ++ ys) = chop ns xs := by
  induction ns generalizing xs with
  | nil => simp [chop]
  | cons n ns ih =>
    simp only [List.sum_cons] at h
    simp only [chop]
    rw [List.take_append_of_le_length (by omega), List.drop_append_of_le_length (by omega), ih _ (by simp; omega)]

theorem chop_reverse {α : Type} (ns : List Nat) (xs : List α) (h : ns.sum = xs.length) :
    chop ns.reverse xs.reverse = ((chop ns xs).map List.reverse).reverse := by
  induction ns generalizing xs with
  | nil => simp [chop]
  | cons n ns ih =>
    rw [List.sum_cons] at h
    simp only [chop, List.reverse_cons, List.map_cons]
    have hd : ns.sum = (xs.drop n).length := by simp; omega
    have e : xs.reverse = (xs.drop n).reverse ++ (xs.take n).reverse := by
      rw [← List.reverse_append, List.take_append_drop]
    rw [chop_append, List.sum_reverse, ← ih (xs.drop n) hd, e, chop_prefix _ _ _ (by rw [List.sum_reverse]; simp; omega)]
    congr 1
    rw [hd, ← List.length_reverse, List.drop_left]
    have hn : n = (xs.take n).reverse.length := by simp; omega
    simp only [chop]
    rw [List.take_of_length_le (by simp)]

theorem intercalate_append_single {α : Type} (sep y : List α) (xs : List (List α)) (h : xs ≠ []) :
    List.intercalate sep (xs ++ [y]) = List.intercalate sep xs ++ sep ++ y := by
  induction xs with
  | nil => exact absurd rfl h
  | cons x xs ih =>
    by_cases hx : xs = []
    · subst hx
      rw [List.cons_append, List.nil_append, intercalate_cons _ _ _ (by simp), intercalate_single, intercalate_single]
    · rw [List.cons_append, intercalate_cons _ _ _ (by simp), ih hx, intercalate_cons _ _ _ hx]
      simp

theorem intercalate_reverse {α : Type} (sep : List α) (xs : List (List α)) :
    (List.intercalate sep xs).reverse = List.intercalate sep.reverse ((xs.map List.reverse).reverse) := by
  induction xs with
  | nil => simp [List.intercalate]
  | cons x xs ih =>
    by_cases hx : xs = []
    · subst hx; simp
    · rw [intercalate_cons _ _ _ hx, List.map_cons, List.reverse_cons,
        intercalate_append_single _ _ _ (by simpa using hx), ← ih]
      simp

theorem grouped_reverse {α : Type} (sep : List α) (ns : List Nat) (xs : List α) (h : ns.sum = xs.length) :
    (grouped sep ns xs).reverse = grouped sep.reverse ns.reverse xs.reverse := by
  unfold grouped
  rw [intercalate_reverse, chop_reverse _ _ h]

theorem chop_length {α : Type} (ns : List Nat) (xs : List α) : (chop ns xs).length = ns.length := by
  induction ns generalizing xs with
  | nil => rfl
  | cons n ns ih => simp [chop, ih]

theorem grouped_length {α : Type} (sep : List α) (ns : List Nat) (xs : List α) (h : ns.sum = xs.length) (hne : ns ≠ []) :
    (grouped sep ns xs).length = xs.length + (ns.length - 1) * sep.length := by
  unfold grouped
  induction ns generalizing xs with
  | nil => exact absurd rfl hne
  | cons n ns ih =>
    rw [List.sum_cons] at h
    by_cases hn : ns = []
    · subst hn
      simp at h
      simp [chop, h]
    · rw [chop, intercalate_cons _ _ _ (chop_ne_nil _ _ hn)]
      have := ih (xs.drop n) (by simp; omega) hn
      simp only [List.length_append, this, List.length_take, List.length_drop, List.length_cons]
      have h1 : 1 ≤ ns.length := List.length_pos_iff.mpr hn
      obtain ⟨k, hk⟩ : ∃ k, ns.length = k + 1 := ⟨ns.length - 1, by omega⟩
      rw [hk, Nat.add_sub_cancel, Nat.add_sub_cancel, Nat.add_mul]
      omega

theorem backLittle_ok (base : Nat) (hb : base = 8 ∨ base = 10 ∨ base = 16) (lc : Lettercase) (sep v : Nat)
    (gs : List Nat) (rep : Bool) (hv : Valid gs rep) (hne : gs ≠ []) (h16 : base = 16 → 0xF < v) :
    backLittle base lc sep v (enc rep gs) =
      grouped [sep] (split gs rep (text base lc v).length).reverse (text base lc v) := by
  cases gs with
  | nil => exact absurd rfl hne
  | cons g gs =>
    have hg := hv.2.1
    have h1 := hg g (by simp)
    have hw : OnGroup (enc rep (g :: gs)) := ⟨rep, g, gs, rfl, hg⟩
    have key : backLittle base lc sep v (enc rep (g :: gs)) = (emit sep (enc rep (g :: gs)) g (rtext base lc v)).reverse := by
      unfold backLittle
      rw [current_enc rep g gs h1.2]
      rcases hb with rfl | rfl | rfl
      · show little8 sep v _ g [] = _
        rw [little8_ok lc sep v _ _ hw h1.1, List.append_nil]
      · show little10 sep v _ g [] = _
        rw [little10_ok lc sep v _ _ hw h1.1, List.append_nil]
      · show little16 lc sep v _ g [] = _
        rw [little16_ok lc sep v _ _ (h16 rfl) hw h1.1, List.append_nil]
    have hb1 : 1 < base := by omega
    rw [key, emit_groups sep rep (rtext base lc v).length g gs _ hg (Nat.le_refl _) (rtext_ne_nil base lc v hb1),
      grouped_reverse _ _ _ (splitFrom_sum _ _ _ _ _), rtext_reverse]
    simp only [rtext, List.length_reverse, List.reverse_singleton, split]

end Strf.IntDigits

import Verif.IntDigits.BackLemmas
import Verif.Numpunct.Props
import Verif.Dest.Lawful
import Mathlib.Data.Nat.Bitwise
/-
Lemmas: writing digits to a destination.
-/
namespace Strf.IntDigits
open Spec Strf.Numpunct Strf.Numpunct.Spec
open Strf.Dest (Dest Lawful Prints After)

variable {σ : Type} {D : Dest Nat σ} {Rep : σ → List Nat → Prop}

/-! ### lengths -/

theorem text_length (b : Nat) (lc : Lettercase) (v : Nat) : (text b lc v).length = (numeral b v).length := by
  simp [text]

theorem len_small (base v : Nat) (hb : base = 8 ∨ base = 10 ∨ base = 16) (hv : v < 2 ^ 64) :
    (numeral base v).length ≤ 22 := by
  rcases hb with rfl | rfl | rfl
  · rw [len8_of_len2]; have := len2_le 64 v (by decide) hv; omega
  · rw [← count10_8_ok v hv]; unfold count10_8; split_ifs <;> omega
  · rw [len16_of_len2]; have := len2_le 64 v (by decide) hv; omega

theorem len_pos (base v : Nat) (hb : 1 < base) : 1 ≤ (numeral base v).length := by
  rw [← rtext_length base .lower v]
  exact List.length_pos_iff.mpr (rtext_ne_nil base .lower v hb)

theorem back_ok (base : Nat) (hb : base = 8 ∨ base = 10 ∨ base = 16) (lc : Lettercase) (v : Nat) :
    back base lc v = text base lc v := by
  rcases hb with rfl | rfl | rfl
  · show back8 v [] = _; rw [back8_ok lc, List.append_nil]
  · show back10 v [] = _; rw [back10_ok lc, List.append_nil]
  · show back16 lc v [] = _; rw [back16_ok lc, List.append_nil]

theorem writeBack_prints (L : Lawful D Rep) (base : Nat) (hb : base = 8 ∨ base = 10 ∨ base = 16) (lc : Lettercase)
    (v : Nat) (hv : v < 2 ^ 64) :
    Prints τ D Rep (writeBack D base lc v (numeral base v).length) (text base lc v) := by
  have h1 := len_small base v hb hv
  have := L.prints_raw (τ := τ) (numeral base v).length (text base lc v) (by rw [text_length]) (by omega)
  intro s t h
  obtain ⟨s', e, r⟩ := this s t h
  refine ⟨s', ?_, r⟩
  unfold writeBack pokeField
  rw [back_ok base hb, if_pos (text_length _ _ _)]
  exact e

theorem grouped_text_length (base : Nat) (lc : Lettercase) (sep : List Nat) (v : Nat) (gs : List Nat) (rep : Bool) :
    (grouped sep (split gs rep (numeral base v).length).reverse (text base lc v)).length =
      (numeral base v).length + ((split gs rep (numeral base v).length).length - 1) * sep.length := by
  rw [grouped_length _ _ _ (by rw [List.sum_reverse, split, splitFrom_sum, text_length])
    (by rw [Ne, List.reverse_eq_nil_iff]; exact splitFrom_ne_nil _ _ _ _ _), text_length, List.length_reverse]

theorem splitFrom_length_le (gs : List Nat) (rep : Bool) (h : ∀ g ∈ gs, 1 ≤ g) (fuel i n : Nat) :
    (splitFrom gs rep fuel i n).length ≤ n + 1 := by
  induction fuel generalizing i n with
  | zero => simp [splitFrom]
  | succ fuel ih =>
    rw [splitFrom]
    cases hg : groupSize gs rep i with
    | none => simp
    | some g =>
      have := h g (groupSize_mem gs rep i g hg)
      dsimp only
      split
      · simp
      · have := ih (i + 1) (n - g); simp; omega

theorem writeLittle_prints (L : Lawful D Rep) (base : Nat) (hb : base = 8 ∨ base = 10 ∨ base = 16) (lc : Lettercase)
    (sep v : Nat) (hv : v < 2 ^ 64) (gs : List Nat) (rep : Bool) (hg : Valid gs rep) (hne : gs ≠ [])
    (h16 : base = 16 → 0xF < v) :
    Prints τ D Rep (writeLittle D base lc sep v (ctor2 (args gs rep)) (numeral base v).length
        ((split gs rep (numeral base v).length).length - 1))
      (grouped [sep] (split gs rep (numeral base v).length).reverse (text base lc v)) := by
  have h1 := len_small base v hb hv
  have hl := grouped_text_length base lc [sep] v gs rep
  rw [List.length_singleton, Nat.mul_one] at hl
  have h2 := splitFrom_length_le gs rep (fun g h => (hg.2.1 g h).1) (numeral base v).length 0 (numeral base v).length
  have := L.prints_raw (τ := τ) ((numeral base v).length + ((split gs rep (numeral base v).length).length - 1))
    (grouped [sep] (split gs rep (numeral base v).length).reverse (text base lc v)) (by rw [hl])
    (by have : (split gs rep (numeral base v).length).length ≤ _ := h2; omega)
  intro s t h
  obtain ⟨s', e, r⟩ := this s t h
  refine ⟨s', ?_, r⟩
  unfold writeLittle pokeField
  rw [ctor2_args gs rep hg, backLittle_ok base hb lc sep v gs rep hg hne h16, text_length, if_pos hl]
  exact e

/-! ### group after group -/

/-- do `G` for each group size in turn -/
def foldG {X : Type} (G : Nat → σ → X → Option (σ × X)) : List Nat → σ → X → Option (σ × X)
  | [], s, x => some (s, x)
  | n :: ns, s, x => (G n s x).bind fun r => foldG G ns r.1 r.2

theorem foldG_append {X : Type} (G : Nat → σ → X → Option (σ × X)) (a b : List Nat) (s : σ) (x : X) :
    foldG G (a ++ b) s x = (foldG G a s x).bind fun r => foldG G b r.1 r.2 := by
  induction a generalizing s x with
  | nil => rfl
  | cons n a ih =>
    simp only [List.cons_append, foldG, Option.bind_assoc]
    congr 1
    funext r
    exact ih _ _

theorem foldG_prints {X : Type} (G : Nat → σ → X → Option (σ × X)) (A : X → List Nat → Prop) (sep : List Nat)
    (hG : ∀ n s x ds t, A x ds → n ≤ ds.length → Rep s t → ∃ s' x', G n s x = some (s', x') ∧ A x' (ds.drop n) ∧
      Rep s' (t ++ (sep ++ ds.take n)) ∧ After τ D s s' (sep ++ ds.take n).length) (ns : List Nat) :
    ∀ s x ds t, A x ds → ns.sum ≤ ds.length → Rep s t →
      ∃ s' x', foldG G ns s x = some (s', x') ∧ Rep s' (t ++ (chop ns ds).flatMap (sep ++ ·)) ∧
        After τ D s s' ((chop ns ds).flatMap (sep ++ ·)).length := by
  induction ns with
  | nil => intro s x ds t _ _ h; exact ⟨s, x, rfl, by simpa [chop] using h, .refl s⟩
  | cons n ns ih =>
    intro s x ds t ha hs h
    rw [List.sum_cons] at hs
    obtain ⟨s1, x1, e1, a1, r1, g1⟩ := hG n s x ds t ha (by omega) h
    obtain ⟨s2, x2, e2, r2, g2⟩ := ih s1 x1 _ _ a1 (by simp; omega) r1
    refine ⟨s2, x2, by simp [foldG, e1, e2], ?_, g1.trans g2 (by simp [chop]; omega)⟩
    simpa [chop, List.append_assoc] using r2

theorem grouped_cons {α : Type} (sep : List α) (n : Nat) (ns : List Nat) (ds : List α) :
    grouped sep (n :: ns) ds = ds.take n ++ (chop ns (ds.drop n)).flatMap (sep ++ ·) := by
  unfold grouped
  rw [chop]
  generalize ds.take n = x
  generalize chop ns (ds.drop n) = xs
  induction xs generalizing x with
  | nil => simp
  | cons y ys ih => rw [intercalate_cons _ _ _ (by simp), ih]; simp

theorem read_cases (d : Dist) : d.read = d.highest :: (List.replicate d.middle (highestGroup d.low) ++
    lowList (if d.middle ≠ 0 then popHigh d.low else d.low)) := by
  unfold Dist.read
  split
  · rfl
  · rename_i h
    have : d.middle = 0 := by omega
    simp [this]

/-! ### bases 8, 10 and 16 with a separator of any size -/

theorem bigMiddle_fold (sep : List Nat) (n m : Nat) (s : σ) (ds : List Nat) :
    bigMiddle D sep n m s ds = foldG (bigGroup D sep) (List.replicate m n) s ds := by
  induction m generalizing s ds with
  | zero => rfl
  | succ m ih => simp only [bigMiddle, List.replicate_succ, foldG, ih]

theorem bigLow_fold (sep : List Nat) (low : Nat) (s : σ) (ds : List Nat) :
    bigLow D sep low s ds = foldG (bigGroup D sep) (lowList low) s ds := by
  induction low using Nat.strongRecOn generalizing s ds with
  | _ low ih =>
    rw [bigLow, lowList]
    by_cases h : low = 0
    · simp [h, foldG]
    · rw [dif_neg h, dif_neg h, foldG]
      congr 1
      funext r
      exact ih _ (by simp [popHigh]; omega) _ _

theorem bigGroup_prints (L : Lawful D Rep) (sep : List Nat) (n : Nat) (s : σ) (x ds t : List Nat)
    (ha : x = ds ∧ sep.length + ds.length ≤ 64) (hn : n ≤ ds.length) (h : Rep s t) :
    ∃ s' x', bigGroup D sep n s x = some (s', x') ∧ (x' = ds.drop n ∧ sep.length + (ds.drop n).length ≤ 64) ∧
      Rep s' (t ++ (sep ++ ds.take n)) ∧ After τ D s s' (sep ++ ds.take n).length := by
  obtain ⟨rfl, hl⟩ := ha
  obtain ⟨s', e, r, g⟩ := L.prints_raw (τ := τ) (sep.length + n) (sep ++ x.take n) (by simp; omega) (by omega) s t h
  refine ⟨s', x.drop n, ?_, ⟨rfl, by rw [List.length_drop]; omega⟩, r, g⟩
  unfold bigGroup
  rw [if_pos hn]
  dsimp only at e
  rw [e]; rfl

theorem writeBig_prints (L : Lawful D Rep) (base : Nat) (hb : base = 8 ∨ base = 10 ∨ base = 16) (lc : Lettercase)
    (sep : List Nat) (hs : sep.length ≤ 42) (v : Nat) (hv : v < 2 ^ 64) (gs : List Nat) (rep : Bool)
    (hg : Valid gs rep) :
    Prints τ D Rep (writeBig D base lc sep v (ctor2 (args gs rep)) (numeral base v).length)
      (grouped sep (split gs rep (numeral base v).length).reverse (text base lc v)) := by
  have h1 := len_small base v hb hv
  have hp := len_pos base v (by omega)
  obtain ⟨d, ed, hr, _, _⟩ := distribute_exact gs rep hg _ hp
  have hsum : d.read.sum = (text base lc v).length := by
    rw [hr, List.sum_reverse, split, splitFrom_sum, text_length]
  have htl := text_length base lc v
  rw [← hr, read_cases, grouped_cons]
  rw [read_cases, List.sum_cons] at hsum
  intro s t h
  unfold writeBig
  rw [ed, back_ok base hb]
  dsimp only
  rw [if_pos (by omega)]
  obtain ⟨s1, e1, r1, g1⟩ := L.prints_raw (τ := τ) d.highest ((text base lc v).take d.highest) (by simp; omega) (by omega) s t h
  dsimp only at e1
  rw [e1]
  dsimp only
  obtain ⟨s2, x2, e2, r2, g2⟩ := foldG_prints (bigGroup D sep) (fun x ds => x = ds ∧ sep.length + ds.length ≤ 64) sep
    (fun n s x ds t ha hn h => bigGroup_prints L sep n s x ds t ha hn h)
    (List.replicate d.middle (highestGroup d.low) ++ lowList (if d.middle ≠ 0 then popHigh d.low else d.low))
    s1 ((text base lc v).drop d.highest) ((text base lc v).drop d.highest) _ ⟨rfl, by simp; omega⟩ (by simp at hsum ⊢; omega) r1
  refine ⟨s2, ?_, by rw [← List.append_assoc]; exact r2, g1.trans g2 (by rw [List.length_append])⟩
  rw [foldG_append, ← bigMiddle_fold] at e2
  by_cases hm : d.middle ≠ 0
  · rw [if_pos hm]
    rw [if_pos hm] at e2
    cases hq : bigMiddle D sep (highestGroup d.low) d.middle s1 ((text base lc v).drop d.highest) with
    | none => rw [hq] at e2; simp at e2
    | some q =>
      rw [hq] at e2
      dsimp only [Option.bind] at e2 ⊢
      rw [bigLow_fold, e2]; rfl
  · rw [if_neg hm]
    rw [if_neg hm] at e2
    have hz : d.middle = 0 := by omega
    rw [hz] at e2
    simp only [bigMiddle, Option.bind] at e2
    rw [bigLow_fold, e2]; rfl

/-! ### base 2 -/

/-- the `k` low bits of `v` as characters, most significant first -/
def bits (v : Nat) : Nat → List Nat
  | 0 => []
  | k + 1 => maskChar v (2 ^ k) :: bits v k

theorem bits_length (v k : Nat) : (bits v k).length = k := by
  induction k with
  | zero => rfl
  | succ k ih => simp [bits, ih]

theorem maskChar_bit (v k : Nat) : maskChar v (2 ^ k) = 48 + v / 2 ^ k % 2 := by
  unfold maskChar
  congr 1
  by_cases h : v.testBit k = true
  · have h2 := h
    rw [Nat.testBit_eq_decide_div_mod_eq] at h2
    have : v &&& 2 ^ k ≠ 0 := by
      rw [Nat.land_comm, Nat.two_pow_and, h]
      have := Nat.two_pow_pos k
      simp
    rw [if_pos this]
    simp at h2; omega
  · have h2 := h
    rw [Nat.testBit_eq_decide_div_mod_eq] at h2
    have : ¬ v &&& 2 ^ k ≠ 0 := by
      rw [Nat.land_comm, Nat.two_pow_and]
      simp [h]
    rw [if_neg this]
    simp at h2; omega

theorem bits_snoc (v k : Nat) : bits v (k + 1) = bits (v / 2) k ++ [48 + v % 2] := by
  induction k with
  | zero => simp [bits]; rw [show (1 : Nat) = 2 ^ 0 from rfl, maskChar_bit]; simp
  | succ k ih =>
    rw [bits, ih, bits]
    simp only [maskChar_bit, List.cons_append]
    rw [Nat.div_div_eq_div_mul, Nat.pow_succ, Nat.mul_comm]

theorem text2_bits (lc : Lettercase) (v : Nat) : text 2 lc v = bits v (numeral 2 v).length := by
  induction v using Nat.strongRecOn with
  | _ v ih =>
    by_cases h : v < 2
    · have e := rtext_lt 2 lc v h
      have hl := rtext_length 2 lc v
      rw [e] at hl
      rw [← hl, ← rtext_reverse, e, digitChar_dec lc v (by omega)]
      simp only [List.length_singleton, List.reverse_singleton]
      rw [bits_snoc, Nat.mod_eq_of_lt h]; rfl
    · have e := rtext_ge 2 (by decide) lc v (by omega)
      have hl := rtext_length 2 lc v
      rw [e, List.length_cons, rtext_length] at hl
      rw [← hl, bits_snoc, ← ih (v / 2) (by omega), ← rtext_reverse, e, digitChar_dec lc _ (by omega),
        List.reverse_cons, rtext_reverse]

theorem mask_half (k : Nat) : 2 ^ (k + 1) / 2 = 2 ^ k := by
  rw [Nat.pow_succ]; omega

theorem binLoop_prints (L : Lawful D Rep) (v k : Nat) :
    Prints τ D Rep (binLoop D v (2 ^ k)) (bits v (k + 1)) := by
  induction k with
  | zero =>
    intro s t h
    obtain ⟨s1, e1, r1, g1⟩ := L.prints_put (τ := τ) (maskChar v (2 ^ 0)) s t h
    refine ⟨s1, ?_, r1, g1⟩
    rw [binLoop]
    dsimp only at e1
    rw [e1]; rfl
  | succ k ih =>
    intro s t h
    obtain ⟨s1, e1, r1, g1⟩ := L.prints_put (τ := τ) (maskChar v (2 ^ (k + 1))) s t h
    obtain ⟨s2, e2, r2, g2⟩ := ih s1 _ r1
    refine ⟨s2, ?_, by rw [bits]; simpa [List.append_assoc] using r2, g1.trans g2 (by simp [bits]; omega)⟩
    rw [binLoop]
    dsimp only at e1
    rw [e1, mask_half]
    dsimp only
    rw [dif_pos (by have := Nat.two_pow_pos k; omega)]
    exact e2

theorem writeBin_prints (L : Lawful D Rep) (lc : Lettercase) (v : Nat) :
    Prints τ D Rep (writeBin D v (numeral 2 v).length) (text 2 lc v) := by
  intro s t h
  unfold writeBin
  by_cases hv : v ≤ 1
  · rw [if_pos hv, ← rtext_reverse, rtext_lt 2 lc v (by omega), digitChar_dec lc v (by omega)]
    exact L.prints_put (τ := τ) _ s t h
  · rw [if_neg hv, text2_bits]
    have := len_pos 2 v (by decide)
    obtain ⟨k, hk⟩ : ∃ k, (numeral 2 v).length = k + 1 := ⟨(numeral 2 v).length - 1, by omega⟩
    rw [hk, Nat.add_sub_cancel]
    exact binLoop_prints L v k s t h

theorem binUnchecked_ok (L : Lawful D Rep) (v n k : Nat) (hn : n ≤ k) (s : σ) (t : List Nat) (h : Rep s t)
    (hs : n ≤ D.space s) :
    ∃ s', binUnchecked D v n (2 ^ k / 2) s = some (s', 2 ^ (k - n) / 2) ∧ Rep s' (t ++ (bits v k).take n) ∧
      After τ D s s' n := by
  induction n generalizing k s t with
  | zero => exact ⟨s, rfl, by simpa using h, .refl s⟩
  | succ n ih =>
    obtain ⟨k, rfl⟩ : ∃ j, k = j + 1 := ⟨k - 1, by omega⟩
    rw [binUnchecked, mask_half]
    obtain ⟨s1, e1, r1, sp1, g1⟩ := L.poke s t [maskChar v (2 ^ k)] h (by simp; omega)
    obtain ⟨s2, e2, r2, g2⟩ := ih k (by omega) s1 _ r1 (by rw [sp1]; simp; omega)
    rw [e1]
    refine ⟨s2, ?_, by rw [bits, List.take_succ_cons]; simpa [List.append_assoc] using r2,
      (After.poke sp1 g1).trans g2 (by simp; omega)⟩
    rw [show k + 1 - (n + 1) = k - n by omega]
    exact e2

theorem binDigits_ok (L : Lawful D Rep) (v n k : Nat) (hn : n ≤ k) (s : σ) (t : List Nat) (h : Rep s t) :
    ∃ s', binDigits D v n (2 ^ k / 2) s = some (s', 2 ^ (k - n) / 2) ∧ Rep s' (t ++ (bits v k).take n) ∧
      After τ D s s' n := by
  induction n generalizing k s t with
  | zero => exact ⟨s, rfl, by simpa using h, .refl s⟩
  | succ n ih =>
    obtain ⟨k, rfl⟩ : ∃ j, k = j + 1 := ⟨k - 1, by omega⟩
    rw [binDigits, mask_half]
    obtain ⟨s1, e1, r1, g1⟩ := L.prints_put (τ := τ) (maskChar v (2 ^ k)) s t h
    obtain ⟨s2, e2, r2, g2⟩ := ih k (by omega) s1 _ r1
    dsimp only at e1
    rw [e1]
    refine ⟨s2, ?_, by rw [bits, List.take_succ_cons]; simpa [List.append_assoc] using r2,
      g1.trans g2 (by simp; omega)⟩
    rw [show k + 1 - (n + 1) = k - n by omega]
    exact e2

theorem bits_drop (v k n : Nat) : (bits v k).drop n = bits v (k - n) := by
  induction n generalizing k with
  | zero => rfl
  | succ n ih =>
    cases k with
    | zero => simp [bits]
    | succ k => rw [bits, List.drop_succ_cons, ih, show k + 1 - (n + 1) = k - n by omega]

/-- the group step with its arguments in the order of `foldG` -/
def binG (D : Dest Nat σ) (v : Nat) (sep : List Nat) (n : Nat) (s : σ) (mask : Nat) : Option (σ × Nat) :=
  binGroup D v sep n mask s

theorem binMiddle_fold (v : Nat) (sep : List Nat) (n m : Nat) (s : σ) (mask : Nat) :
    binMiddle D v sep n m mask s = foldG (binG D v sep) (List.replicate m n) s mask := by
  induction m generalizing s mask with
  | zero => rfl
  | succ m ih => simp only [binMiddle, List.replicate_succ, foldG, ih, binG]

theorem binLow_fold (v : Nat) (sep : List Nat) (low : Nat) (s : σ) (mask : Nat) :
    binLow D v sep low mask s = foldG (binG D v sep) (lowList low) s mask := by
  induction low using Nat.strongRecOn generalizing s mask with
  | _ low ih =>
    rw [binLow, lowList]
    by_cases h : low = 0
    · simp [h, foldG]
    · rw [dif_neg h, dif_neg h, foldG]
      unfold binG
      congr 1
      funext r
      exact ih _ (by simp [popHigh]; omega) _ _

theorem binG_prints (L : Lawful D Rep) (v : Nat) (sep : List Nat) (hs : sep.length ≤ 64) (n : Nat) (s : σ) (x : Nat)
    (ds t : List Nat) (ha : ∃ k, x = 2 ^ k / 2 ∧ ds = bits v k) (hn : n ≤ ds.length) (h : Rep s t) :
    ∃ s' x', binG D v sep n s x = some (s', x') ∧ (∃ k, x' = 2 ^ k / 2 ∧ ds.drop n = bits v k) ∧
      Rep s' (t ++ (sep ++ ds.take n)) ∧ After τ D s s' (sep ++ ds.take n).length := by
  obtain ⟨k, rfl, rfl⟩ := ha
  rw [bits_length] at hn
  obtain ⟨s1, e1, r1, g1⟩ := L.prints_raw (τ := τ) sep.length sep rfl hs s t h
  obtain ⟨s2, e2, r2, g2⟩ := binDigits_ok L v n k hn s1 _ r1
  refine ⟨s2, _, ?_, ⟨k - n, rfl, bits_drop v k n⟩, by simpa [List.append_assoc] using r2,
    g1.trans g2 (by simp [bits_length]; omega)⟩
  unfold binG binGroup
  dsimp only at e1
  rw [e1]
  exact e2

/-- from a state with room for the highest group, the groups are written -/
theorem binGroups_ok (L : Lawful D Rep) (lc : Lettercase) (sep : List Nat) (hs : sep.length ≤ 64) (v : Nat)
    (gs : List Nat) (rep : Bool) (hg : Valid gs rep) :
    ∃ d, distribute (ctor2 (args gs rep)) (numeral 2 v).length = some d ∧
      (split gs rep (numeral 2 v).length).getLast? = some d.highest ∧ d.highest ≤ (numeral 2 v).length ∧
      ∀ s t, Rep s t → d.highest ≤ D.space s →
        ∃ s', binGroups D v sep d (2 ^ ((numeral 2 v).length - 1)) s = some s' ∧
          Rep s' (t ++ grouped sep (split gs rep (numeral 2 v).length).reverse (text 2 lc v)) ∧
          After τ D s s' (grouped sep (split gs rep (numeral 2 v).length).reverse (text 2 lc v)).length := by
  have hp := len_pos 2 v (by decide)
  obtain ⟨d, ed, hr, _, _⟩ := distribute_exact gs rep hg _ hp
  have hsum : d.read.sum = (numeral 2 v).length := by
    rw [hr, List.sum_reverse, split, splitFrom_sum]
  have hlast : (split gs rep (numeral 2 v).length).getLast? = some d.highest := by
    rw [← List.head?_reverse, ← hr, read_cases]; rfl
  rw [← hr, text2_bits, read_cases, grouped_cons]
  rw [read_cases, List.sum_cons] at hsum
  refine ⟨d, ed, hlast, by omega, fun s t h hsp => ?_⟩
  have hmask : 2 ^ ((numeral 2 v).length - 1) = 2 ^ (numeral 2 v).length / 2 := by
    obtain ⟨k, hk⟩ : ∃ k, (numeral 2 v).length = k + 1 := ⟨(numeral 2 v).length - 1, by omega⟩
    rw [hk, mask_half, Nat.add_sub_cancel]
  obtain ⟨s1, e1, r1, g1⟩ := binUnchecked_ok L v d.highest (numeral 2 v).length (by omega) s t h hsp
  unfold binGroups
  rw [hmask, e1]
  dsimp only
  obtain ⟨s2, x2, e2, r2, g2⟩ := foldG_prints (binG D v sep) (fun x ds => ∃ k, x = 2 ^ k / 2 ∧ ds = bits v k) sep
    (fun n s x ds t ha hn h => binG_prints L v sep hs n s x ds t ha hn h)
    (List.replicate d.middle (highestGroup d.low) ++ lowList (if d.middle ≠ 0 then popHigh d.low else d.low))
    s1 (2 ^ ((numeral 2 v).length - d.highest) / 2) ((bits v (numeral 2 v).length).drop d.highest) _
    ⟨_, rfl, bits_drop _ _ _⟩ (by rw [List.length_drop, bits_length]; omega) r1
  refine ⟨s2, ?_, by rw [← List.append_assoc]; exact r2, g1.trans g2 (by rw [List.length_append, List.length_take, bits_length]; omega)⟩
  rw [foldG_append, ← binMiddle_fold] at e2
  by_cases hm : d.middle ≠ 0
  · rw [if_pos hm]
    rw [if_pos hm] at e2
    cases hq : binMiddle D v sep (highestGroup d.low) d.middle (2 ^ ((numeral 2 v).length - d.highest) / 2) s1 with
    | none => rw [hq] at e2; simp at e2
    | some q =>
      rw [hq] at e2
      dsimp only [Option.bind] at e2 ⊢
      rw [binLow_fold, e2]; rfl
  · rw [if_neg hm]
    rw [if_neg hm] at e2
    have hz : d.middle = 0 := by omega
    rw [hz] at e2
    simp only [binMiddle, Option.bind] at e2
    rw [binLow_fold, e2]; rfl

theorem writeBinBig_prints (L : Lawful D Rep) (lc : Lettercase) (sep : List Nat) (hs : sep.length ≤ 64) (v : Nat)
    (hv : v < 2 ^ 64) (gs : List Nat) (rep : Bool) (hg : Valid gs rep) :
    Prints τ D Rep (writeBinBig D sep v (ctor2 (args gs rep)) (numeral 2 v).length)
      (grouped sep (split gs rep (numeral 2 v).length).reverse (text 2 lc v)) := by
  obtain ⟨d, ed, _, hd, hk⟩ := binGroups_ok L lc sep hs v gs rep hg
  have := len2_le 64 v (by decide) hv
  intro s t h
  unfold writeBinBig
  rw [ed]
  dsimp only
  obtain ⟨r, sp, g⟩ := L.ensure h d.highest (by omega)
  obtain ⟨s', e, r', g'⟩ := hk _ t r sp
  refine ⟨s', e, r', .ensure g g' (fun _ => ?_)⟩
  rw [grouped_text_length]; omega

end Strf.IntDigits

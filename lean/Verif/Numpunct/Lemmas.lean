import Verif.Numpunct.Spec
import Verif.Numpunct.Model
/-
Lemmas: packed words as lists of groups.
-/
namespace Strf.Numpunct
open Spec

/-- the packed word of a grouping -/
def enc (rep : Bool) : List Nat → Nat
  | [] => if rep then 2 else 3
  | g :: gs => g + 32 * enc rep gs

theorem or32 (x g : Nat) (hg : g < 32) : 32 * x ||| g = 32 * x + g :=
  (Nat.two_pow_add_eq_or_of_lt (i := 5) (b := g) hg x).symm

theorem shl5_or (r g : Nat) (hr : r < 2 ^ 27) (hg : g < 32) : shl5 r ||| g = 32 * r + g := by
  rw [← or32 r g hg]
  unfold shl5
  congr 1
  omega

theorem enc_lt (rep : Bool) (gs : List Nat) (h : ∀ g ∈ gs, 1 ≤ g ∧ g ≤ 31) : enc rep gs < 4 * 32 ^ gs.length := by
  induction gs with
  | nil => cases rep <;> decide
  | cons g gs ih =>
    have := h g (by simp)
    have := ih (fun x hx => h x (by simp [hx]))
    simp only [enc, List.length_cons, Nat.pow_succ]
    omega

theorem enc_ge (rep : Bool) (gs : List Nat) : 2 ≤ enc rep gs := by
  induction gs with
  | nil => cases rep <;> decide
  | cons g gs ih => simp only [enc]; omega

theorem pow32_mono (a b : Nat) (h : a ≤ b) : 32 ^ a ≤ 32 ^ b := Nat.pow_le_pow_right (by decide) h

theorem enc_lt27 (rep : Bool) (gs : List Nat) (h : ∀ g ∈ gs, 1 ≤ g ∧ g ≤ 31) (hl : gs.length ≤ 5) :
    enc rep gs < 2 ^ 27 := by
  have h1 := enc_lt rep gs h
  have h2 := pow32_mono _ _ hl
  have h3 : (32 : Nat) ^ 5 = 2 ^ 25 := by decide
  omega

theorem ctor2_args (gs : List Nat) (rep : Bool) (hv : Valid gs rep) : ctor2 (args gs rep) = enc rep gs := by
  obtain ⟨hl, hg, hr⟩ := hv
  induction gs with
  | nil => rw [hr rfl]; rfl
  | cons g gs ih =>
    have g1 := hg g (by simp)
    have hg' : ∀ x ∈ gs, 1 ≤ x ∧ x ≤ 31 := fun x hx => hg x (by simp [hx])
    have hlen : gs.length ≤ 5 := by simpa using hl
    cases gs with
    | nil =>
      cases rep
      · simp only [args, enc, List.map, List.nil_append, List.cons_append, Bool.false_eq_true, if_false, ctor2,
          if_true]
        rw [Nat.or_comm, shl5_or _ _ (by decide) (by simp; omega)]
        simp [dontRepeatLast]; omega
      · simp only [args, enc, List.map, List.append_nil, if_true, ctor2]
        rw [if_neg (by simp)]
        have := or32 2 g (by omega)
        simp only [repeatLast] at *
        simp at this ⊢
        omega
    | cons g2 gs =>
      have ih' := ih (by simp at hl ⊢; omega) hg' (by simp)
      simp only [args, List.map, List.cons_append, ctor2] at ih' ⊢
      rw [ih', Nat.or_comm, shl5_or _ _ (enc_lt27 rep _ hg' hlen) (by simp; omega)]
      simp only [enc, Int.ofNat_eq_natCast, Int.toNat_natCast]
      omega

/-! iterator -/
theorem current_enc (rep : Bool) (g : Nat) (gs : List Nat) (h : g ≤ 31) : current (enc rep (g :: gs)) = g := by
  simp only [current, enc]; omega
theorem advance_enc (rep : Bool) (g : Nat) (gs : List Nat) (h : g ≤ 31) :
    advance (enc rep (g :: gs)) = enc rep gs := by
  simp only [advance, enc]; omega
theorem enc_ge_of_ne (rep : Bool) (gs : List Nat) (h : ∀ g ∈ gs, 1 ≤ g ∧ g ≤ 31) (hn : gs ≠ []) :
    65 ≤ enc rep gs := by
  cases gs with
  | nil => exact absurd rfl hn
  | cons g gs => have := enc_ge rep gs; have := h g (by simp); simp only [enc]; omega
theorem isLast_enc (rep : Bool) (g : Nat) (gs : List Nat) (h : ∀ x ∈ g :: gs, 1 ≤ x ∧ x ≤ 31) :
    isLast (enc rep (g :: gs)) = gs.isEmpty := by
  have hg := h g (by simp)
  cases gs with
  | nil => simp only [isLast, enc, List.isEmpty_nil]; cases rep <;> simp <;> omega
  | cons g2 gs =>
    have := enc_ge_of_ne rep (g2 :: gs) (fun x hx => h x (by simp [hx])) (by simp)
    simp only [isLast, List.isEmpty_cons, beq_eq_false_iff_ne]
    rw [enc]; omega
theorem shallRepeat_enc (rep : Bool) (g : Nat) (gs : List Nat) (h : ∀ x ∈ g :: gs, 1 ≤ x ∧ x ≤ 31) :
    shallRepeat (enc rep (g :: gs)) = (gs.isEmpty && rep) := by
  have hg := h g (by simp)
  have ha := advance_enc rep g gs hg.2
  unfold advance at ha
  unfold shallRepeat
  rw [ha]
  cases gs with
  | nil => cases rep <;> decide
  | cons g2 gs =>
    have := enc_ge_of_ne rep (g2 :: gs) (fun x hx => h x (by simp [hx])) (by simp)
    simp only [List.isEmpty_cons, Bool.false_and, beq_eq_false_iff_ne, repeatLast]; omega
theorem isFinal_enc (rep : Bool) (g : Nat) (gs : List Nat) (h : ∀ x ∈ g :: gs, 1 ≤ x ∧ x ≤ 31) :
    isFinal (enc rep (g :: gs)) = (gs.isEmpty && !rep) := by
  have hg := h g (by simp)
  have ha := advance_enc rep g gs hg.2
  unfold advance at ha
  unfold isFinal
  rw [ha]
  cases gs with
  | nil => cases rep <;> decide
  | cons g2 gs =>
    have := enc_ge_of_ne rep (g2 :: gs) (fun x hx => h x (by simp [hx])) (by simp)
    simp only [List.isEmpty_cons, Bool.false_and, beq_eq_false_iff_ne, dontRepeatLast]; omega
theorem ended_enc (rep : Bool) (gs : List Nat) (h : ∀ x ∈ gs, 1 ≤ x ∧ x ≤ 31) :
    ended (enc rep gs) = gs.isEmpty := by
  cases gs with
  | nil => cases rep <;> decide
  | cons g gs =>
    have := enc_ge_of_ne rep (g :: gs) h (by simp)
    simp only [ended, List.isEmpty_cons, beq_eq_false_iff_ne]; omega

/-! the specification's splitting as list recursion -/
theorem splitFrom_shift (g : Nat) (gs : List Nat) (rep : Bool) (h : gs ≠ [] ∨ rep = false) (fuel i n : Nat) :
    splitFrom (g :: gs) rep fuel (i + 1) n = splitFrom gs rep fuel i n := by
  induction fuel generalizing i n with
  | zero => rfl
  | succ fuel ih =>
    have hs : groupSize (g :: gs) rep (i + 1) = groupSize gs rep i := by
      unfold groupSize
      by_cases hi : i < gs.length
      · simp [hi]
      · rw [if_neg (by simpa using hi), if_neg hi]
        rcases h with h | h
        · cases gs with
          | nil => exact absurd rfl h
          | cons a l => simp
        · simp [h]
    simp only [splitFrom, hs, ih]

theorem splitFrom_const (g : Nat) (fuel i n : Nat) :
    splitFrom [g] true fuel i n = splitFrom [g] true fuel 0 n := by
  induction fuel generalizing i n with
  | zero => rfl
  | succ fuel ih =>
    have hs : ∀ j, groupSize [g] true j = some g := by
      intro j; unfold groupSize
      by_cases hj : j < 1
      · have : j = 0 := by omega
        subst this; simp
      · simp; omega
    simp only [splitFrom, hs]
    rw [ih (i + 1), ih (0 + 1)]

theorem splitFrom_nil (fuel i n : Nat) (rep : Bool) : splitFrom [] rep fuel i n = [n] := by
  cases fuel <;> cases rep <;> simp [splitFrom, groupSize]

theorem splitFrom_cons (g : Nat) (gs : List Nat) (rep : Bool) (h : gs ≠ [] ∨ rep = false) (fuel n : Nat) :
    splitFrom (g :: gs) rep (fuel + 1) 0 n = if n ≤ g then [n] else g :: splitFrom gs rep fuel 0 (n - g) := by
  have hs : groupSize (g :: gs) rep 0 = some g := by simp [groupSize]
  simp only [splitFrom, hs, splitFrom_shift g gs rep h]

theorem splitFrom_single (g fuel n : Nat) :
    splitFrom [g] true (fuel + 1) 0 n = if n ≤ g then [n] else g :: splitFrom [g] true fuel 0 (n - g) := by
  have hs : groupSize [g] true 0 = some g := by simp [groupSize]
  simp only [splitFrom, hs, splitFrom_const g fuel (0 + 1)]

theorem splitFrom_repeat (g : Nat) (hg : 1 ≤ g) (fuel n : Nat) (hn : 1 ≤ n) (hf : n ≤ fuel) :
    splitFrom [g] true fuel 0 n = List.replicate ((n - 1) / g) g ++ [1 + (n - 1) % g] := by
  induction fuel generalizing n with
  | zero => omega
  | succ fuel ih =>
    rw [splitFrom_single]
    by_cases h : n ≤ g
    · rw [if_pos h, Nat.div_eq_of_lt (by omega), Nat.mod_eq_of_lt (by omega)]
      simp; omega
    · rw [if_neg h, ih (n - g) (by omega) (by omega)]
      have e : n - 1 = (n - g - 1) + g := by omega
      rw [e, Nat.add_div_right _ (by omega), Nat.add_mod_right, List.replicate_succ]
      simp

theorem splitFrom_length_pos (gs : List Nat) (rep : Bool) (fuel i n : Nat) :
    1 ≤ (splitFrom gs rep fuel i n).length := by
  cases fuel with
  | zero => simp [splitFrom]
  | succ fuel =>
    simp only [splitFrom]
    split
    · simp
    · split <;> simp

theorem sepLoop_enc (rep : Bool) (gs : List Nat) (h : ∀ x ∈ gs, 1 ≤ x ∧ x ≤ 31) (hne : gs ≠ []) (fuel n c : Nat)
    (hn : 1 ≤ n) (hf : n ≤ fuel) :
    sepLoop (enc rep gs) n c = c + ((splitFrom gs rep fuel 0 n).length - 1) := by
  induction gs generalizing fuel n c with
  | nil => exact absurd rfl hne
  | cons g gs ih =>
    have hg := h g (by simp)
    have h' : ∀ x ∈ gs, 1 ≤ x ∧ x ≤ 31 := fun x hx => h x (by simp [hx])
    obtain ⟨fuel, rfl⟩ : ∃ f, fuel = f + 1 := ⟨fuel - 1, by omega⟩
    rw [sepLoop, current_enc rep g gs hg.2, isLast_enc rep g gs h, shallRepeat_enc rep g gs h,
      advance_enc rep g gs hg.2]
    by_cases hle : n ≤ g
    · rw [if_pos hle]
      have : splitFrom (g :: gs) rep (fuel + 1) 0 n = [n] := by
        simp only [splitFrom]
        have hs : groupSize (g :: gs) rep 0 = some g := by simp [groupSize]
        rw [hs]; simp [hle]
      rw [this]; simp
    · rw [if_neg hle]
      cases gs with
      | nil =>
        cases rep
        · rw [splitFrom_cons g [] false (Or.inr rfl), if_neg hle, splitFrom_nil]
          simp; omega
        · rw [splitFrom_repeat g hg.1 _ _ hn hf]
          simp
      | cons g2 gs =>
        rw [splitFrom_cons g (g2 :: gs) rep (Or.inl (by simp)), if_neg hle]
        simp only [List.isEmpty_cons, Bool.false_eq_true, dite_false, List.length_cons, Nat.add_sub_cancel]
        rw [ih h' (by simp) fuel (n - g) (c + 1) (by omega) (by omega)]
        have := splitFrom_length_pos (g2 :: gs) rep fuel 0 (n - g)
        omega

/-! reversed groups -/
/-- the word of a list of low groups, most significant first -/
def revEnc : List Nat → Nat
  | [] => 0
  | g :: gs => g + 32 * revEnc gs

theorem revEnc_lt (gs : List Nat) (h : ∀ g ∈ gs, 1 ≤ g ∧ g ≤ 31) : revEnc gs < 32 ^ gs.length := by
  induction gs with
  | nil => decide
  | cons g gs ih =>
    have := h g (by simp)
    have := ih (fun x hx => h x (by simp [hx]))
    simp only [revEnc, List.length_cons, Nat.pow_succ]
    omega

theorem revEnc_lt25 (gs : List Nat) (h : ∀ g ∈ gs, 1 ≤ g ∧ g ≤ 31) (hl : gs.length ≤ 5) : revEnc gs < 2 ^ 25 := by
  have h1 := revEnc_lt gs h
  have h2 := pow32_mono _ _ hl
  have h3 : (32 : Nat) ^ 5 = 2 ^ 25 := by decide
  omega

theorem pushLow_revEnc (gs : List Nat) (g : Nat) (h : ∀ g ∈ gs, 1 ≤ g ∧ g ≤ 31) (hl : gs.length ≤ 5) (hg : g ≤ 31) :
    pushLow (revEnc gs) g = revEnc (g :: gs) := by
  have := revEnc_lt25 gs h hl
  unfold pushLow
  rw [shl5_or _ _ (by omega) (by omega), revEnc]; omega

theorem lowList_revEnc (gs : List Nat) (h : ∀ g ∈ gs, 1 ≤ g ∧ g ≤ 31) : lowList (revEnc gs) = gs := by
  induction gs with
  | nil => rw [revEnc, lowList]; rfl
  | cons g gs ih =>
    have hg := h g (by simp)
    rw [revEnc, lowList, dif_neg (by omega)]
    have e1 : highestGroup (g + 32 * revEnc gs) = g := by simp only [highestGroup]; omega
    have e2 : popHigh (g + 32 * revEnc gs) = revEnc gs := by simp only [popHigh]; omega
    rw [e1, e2, ih (fun x hx => h x (by simp [hx]))]

theorem read_revEnc_zero (gs : List Nat) (h : ∀ g ∈ gs, 1 ≤ g ∧ g ≤ 31) (n : Nat) :
    Dist.read ⟨revEnc gs, 0, n⟩ = n :: gs := by
  simp only [Dist.read, ne_eq, not_true_eq_false, if_false]
  rw [lowList_revEnc gs h]

theorem read_revEnc_pos (g : Nat) (gs : List Nat) (h : ∀ x ∈ g :: gs, 1 ≤ x ∧ x ≤ 31) (m n : Nat) (hm : m ≠ 0) :
    Dist.read ⟨revEnc (g :: gs), m, n⟩ = n :: (List.replicate m g ++ gs) := by
  have hg := h g (by simp)
  simp only [Dist.read, ne_eq, hm, not_false_eq_true, if_true]
  have e1 : highestGroup (revEnc (g :: gs)) = g := by simp only [highestGroup, revEnc]; omega
  have e2 : popHigh (revEnc (g :: gs)) = revEnc gs := by simp only [popHigh, revEnc]; omega
  rw [e1, e2, lowList_revEnc gs (fun x hx => h x (by simp [hx]))]

theorem distLoop_enc (rep : Bool) (gs : List Nat) (h : ∀ x ∈ gs, 1 ≤ x ∧ x ≤ 31) (hne : gs ≠ [])
    (low : List Nat) (hlow : ∀ x ∈ low, 1 ≤ x ∧ x ≤ 31) (hlen : low.length + gs.length ≤ 6)
    (turns fuel n : Nat) (ht : gs.length ≤ turns) (hn : 1 ≤ n) (hf : n ≤ fuel) :
    ∃ d, distLoop turns (enc rep gs) (revEnc low) n = some d ∧
      d.read = (splitFrom gs rep fuel 0 n).reverse ++ low ∧ 1 ≤ d.highest ∧ (d.middle ≠ 0 → d.low ≠ 0) := by
  induction gs generalizing low turns fuel n with
  | nil => exact absurd rfl hne
  | cons g gs ih =>
    have hg := h g (by simp)
    have h' : ∀ x ∈ gs, 1 ≤ x ∧ x ≤ 31 := fun x hx => h x (by simp [hx])
    obtain ⟨fuel, rfl⟩ : ∃ f, fuel = f + 1 := ⟨fuel - 1, by omega⟩
    obtain ⟨turns, rfl⟩ : ∃ f, turns = f + 1 := ⟨turns - 1, by simp at ht; omega⟩
    have hcons : ∀ x ∈ g :: low, 1 ≤ x ∧ x ≤ 31 := by
      intro x hx; rcases List.mem_cons.mp hx with rfl | hx
      · exact hg
      · exact hlow x hx
    have hlow5 : low.length ≤ 5 := by simp at hlen; omega
    have hs0 : groupSize (g :: gs) rep 0 = some g := by simp [groupSize]
    simp only [distLoop, current_enc rep g gs hg.2, shallRepeat_enc rep g gs h, isFinal_enc rep g gs h,
      advance_enc rep g gs hg.2, pushLow_revEnc low g hlow hlow5 hg.2]
    by_cases hle : g ≥ n
    · rw [if_pos hle]
      refine ⟨_, rfl, ?_, hn, by simp⟩
      rw [read_revEnc_zero low hlow]
      simp only [splitFrom, hs0]
      rw [if_pos (show n ≤ g from hle)]; simp
    · have hle' : ¬ n ≤ g := hle
      rw [if_neg hle]
      cases gs with
      | nil =>
        cases rep
        · simp only [List.isEmpty_nil, Bool.and_false, Bool.false_eq_true, if_false, Bool.not_false, Bool.and_true, if_true]
          refine ⟨_, rfl, ?_, by show 1 ≤ n - g; omega, by simp⟩
          rw [read_revEnc_zero (g :: low) hcons, splitFrom_cons g [] false (Or.inr rfl), if_neg hle', splitFrom_nil]
          simp
        · simp only [List.isEmpty_nil, Bool.and_true, if_true]
          have hm : (n - 1) / g ≠ 0 := by
            have : 1 ≤ (n - 1) / g := (Nat.le_div_iff_mul_le (by omega)).mpr (by omega)
            omega
          refine ⟨_, rfl, ?_, by show 1 ≤ 1 + (n - 1) % g; omega, fun _ => ?_⟩
          · rw [read_revEnc_pos g low hcons _ _ hm, splitFrom_repeat g hg.1 _ _ hn hf]
            simp
          · show revEnc (g :: low) ≠ 0
            simp only [revEnc]; omega
      | cons g2 gs =>
        simp only [List.isEmpty_cons, Bool.false_and, Bool.false_eq_true, if_false]
        obtain ⟨d, e, r, k⟩ := ih h' (by simp) (g :: low) hcons (by simp at hlen ⊢; omega) turns fuel (n - g)
          (by simp at ht ⊢; omega) (by omega) (by omega)
        refine ⟨d, e, ?_, k⟩
        rw [r, splitFrom_cons g (g2 :: gs) rep (Or.inl (by simp)), if_neg hle']
        simp

end Strf.Numpunct

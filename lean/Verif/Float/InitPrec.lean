import Verif.Float.Init
/-
Lemmas: the initialization of the data, with precision.
-/
namespace Strf.Float
open Strf.Float.Spec hiding Notation
open Strf.IntDigits Strf.IntDigits.Spec Strf.Numpunct Strf.Numpunct.Spec Strf.Print
open Strf.IntPrinter (b2n b2i AlignFmt signChar printFill)
open Strf.IntPrinter.Spec (Showsign Align Layout before times)

theorem roundAt_exact (m : Nat) (e q : Int) (h : q ≤ e) : roundAt m e q = m * 10 ^ (e - q).toNat := by
  unfold roundAt; rw [if_pos h]

theorem roundAt_drop (m k : Nat) (e : Int) (hk : 1 ≤ k) : roundAt m e (e + k) =
    if m % 10 ^ k > 10 ^ k / 2 ∨ (m % 10 ^ k = 10 ^ k / 2 ∧ m / 10 ^ k % 2 = 1) then m / 10 ^ k + 1 else m / 10 ^ k := by
  unfold roundAt
  rw [if_neg (by omega)]
  dsimp only
  rw [show (e + (k : Int) - e).toNat = k by omega]
  obtain ⟨j, rfl⟩ := Nat.exists_eq_add_of_le' hk
  have h2 : 10 ^ (j + 1) = 2 * (5 * 10 ^ j) := by rw [Nat.pow_succ]; ring
  generalize m / 10 ^ (j + 1) = q
  generalize m % 10 ^ (j + 1) = r
  rw [h2]
  generalize 5 * 10 ^ j = u
  split_ifs <;> omega

/-- rounding to `n` digits gives a number of `n` digits, or `10^n` -/
theorem round_len (m k : Nat) (e : Int) (hk : 1 ≤ k) (hl : k < (numeral 10 m).length) :
    10 ^ ((numeral 10 m).length - k - 1) ≤ roundAt m e (e + k) ∧ roundAt m e (e + k) ≤ 10 ^ ((numeral 10 m).length - k) ∧
    (roundAt m e (e + k) ≠ 10 ^ ((numeral 10 m).length - k) →
      (numeral 10 (roundAt m e (e + k))).length = (numeral 10 m).length - k) := by
  have hd := len_div k m hl
  have h1 := lt_of_len (m / 10 ^ k) _ (le_of_eq hd)
  have h2 : 10 ^ ((numeral 10 m).length - k - 1) ≤ m / 10 ^ k := by
    rcases le_of_len (m / 10 ^ k) ((numeral 10 m).length - k - 1) (by omega) with h | h
    · rw [h, Nat.pow_zero]
      rcases le_of_len m k hl with h | h
      · omega
      · exact (Nat.one_le_div_iff (Nat.pow_pos (by decide))).mpr h
    · exact h
  have h3 : roundAt m e (e + k) = m / 10 ^ k ∨ roundAt m e (e + k) = m / 10 ^ k + 1 := by
    rw [roundAt_drop m k e hk]; split_ifs
    · exact .inr rfl
    · exact .inl rfl
  have h4 : roundAt m e (e + k) ≤ 10 ^ ((numeral 10 m).length - k) := by omega
  refine ⟨by omega, h4, fun hne => ?_⟩
  have h5 := len_le (roundAt m e (e + k)) ((numeral 10 m).length - k) (by omega) (by omega)
  by_contra hc
  have := lt_of_len (roundAt m e (e + k)) ((numeral 10 m).length - k - 1) (by omega)
  omega

theorem significant_exact (n m : Nat) (e : Int) (h : (numeral 10 m).length ≤ n) :
    significant n m e = (m * 10 ^ (n - (numeral 10 m).length), sciExp m e) := by
  have hp := len_pos10 m
  have hlt : m * 10 ^ (n - (numeral 10 m).length) < 10 ^ n := by
    have h1 := lt_of_len m _ (le_refl _)
    calc m * 10 ^ (n - (numeral 10 m).length) < 10 ^ (numeral 10 m).length * 10 ^ (n - (numeral 10 m).length) :=
          Nat.mul_lt_mul_of_pos_right h1 (Nat.pow_pos (by decide))
      _ = 10 ^ n := by rw [← Nat.pow_add]; congr 1; omega
  have hr : roundAt m e (sciExp m e - ((n : Int) - 1)) = m * 10 ^ (n - (numeral 10 m).length) := by
    rw [roundAt_exact _ _ _ (by unfold sciExp; omega)]
    congr 2; unfold sciExp; omega
  unfold significant
  dsimp only
  rw [hr, if_neg (by omega)]

theorem significant_round (n m : Nat) (e : Int) (h : n < (numeral 10 m).length) :
    significant n m e = if roundAt m e (e + ((numeral 10 m).length - n : Nat)) = 10 ^ n then (10 ^ (n - 1), sciExp m e + 1)
      else (roundAt m e (e + ((numeral 10 m).length - n : Nat)), sciExp m e) := by
  unfold significant
  dsimp only
  rw [show sciExp m e - ((n : Int) - 1) = e + ((numeral 10 m).length - n : Nat) by unfold sciExp; omega]

theorem pow10_eq (n : Nat) (h : n ≤ 19) : pow10 (n : Int) = some (10 ^ n) := by
  unfold pow10; rw [if_pos (by omega), Int.toNat_natCast]

theorem dropDigits_eq (k : Nat) (hk : 1 ≤ k) (h : k ≤ 19) (xz : Int) (hx : xz = -(k : Int)) (d : Data) :
    dropDigits xz d = some { d with digcount := d.digcount - k, e := d.e + k, m := roundAt d.m d.e (d.e + k) } := by
  unfold dropDigits
  rw [hx, Int.neg_neg, pow10_eq k h, Option.map_some, roundAt_drop _ _ _ hk]
  congr 1
  rw [Data.mk.injEq]
  exact ⟨rfl, rfl, rfl, rfl, rfl, rfl, rfl, rfl, by omega, rfl, rfl, rfl, rfl, rfl, by omega⟩

theorem one_len : (numeral 10 1).length = 1 := len_lt 1 (by decide)
theorem zero_len : (numeral 10 0).length = 1 := len_lt 0 (by decide)

section
variable {gs : List Nat} {rep : Bool} (hg : Valid gs rep) {sign : Showsign} {neg : Bool} {fill : Nat} {pad0 : Int} {m : Nat}
  {e : Int} {d : Data} (hs : StartOk sign neg fill pad0 m e d) (hd : GoodDec m e) (width : Int) (al : Align) (alt : Bool)
  (p : Nat) (hp : p ≤ 2 ^ 29)

include hs hd hp

set_option maxHeartbeats 2000000 in
theorem withPrecisionSci_ok : ∃ d', withPrecisionSci p width al alt d = initFill d' width (max d'.sub d'.pad0) al ∧
    Good gs rep alt (shape gs rep .scientific (some p) alt m e) sign neg fill pad0 d' := by
  have hc : countDigits 10 8 d.m = (numeral 10 m).length := by rw [hs.m]; exact count_eq m hd.lt64
  have hp1 := len_pos10 m
  have hl := hd.len
  have hlo := hd.lo
  have hhi := hd.hi
  have hpt : decide ((p : Int) ≠ 0) = decide (0 < p) := by rw [decide_eq_decide]; omega
  unfold withPrecisionSci shape
  dsimp only
  rw [hc, hs.e, hs.m, hs.sub]
  by_cases hx : (p : Int) - (((numeral 10 m).length : Int) - 1) ≥ 0
  · rw [if_pos hx, Option.bind_some, significant_exact _ _ _ (by omega)]
    refine ⟨_, rfl, ?_⟩
    refine good_sci ⟨hs.sg.char, hs.sg.shown⟩ hs.fill hs.pad0 rfl ?_ ?_ ?_ rfl ?_ ?_ ?_ ?_ rfl ?_ ?_ <;> dsimp only
    · rfl
    · omega
    · exact hd.lt
    · exact hx
    · congr 2; omega
    · omega
    · rw [hpt]
    · rw [show e + ((numeral 10 m).length : Int) - 1 = (numeral 10 m).length + e - 1 by omega]; omega
    · omega
  · rw [if_neg hx]
    have hk1 : 1 ≤ (numeral 10 m).length - (p + 1) := by omega
    generalize hkd : (numeral 10 m).length - (p + 1) = k at hk1
    have hsr := significant_round (p + 1) m e (by omega)
    rw [hkd] at hsr
    rw [hsr]
    rw [dropDigits_eq k hk1 (by omega) _ (by omega)]
    rw [Option.bind_some]
    dsimp only
    have hdc : ((numeral 10 m).length : Int) - k = ((p + 1 : Nat) : Int) := by omega
    obtain ⟨hr1, hr2, hr3⟩ := round_len m k e hk1 (by omega)
    rw [show (numeral 10 m).length - k = p + 1 by omega] at hr2 hr3
    have hpw : 10 ^ (p + 1) ≤ 10 ^ 16 := Nat.pow_le_pow_right (by decide) (by omega)
    unfold carried
    dsimp only
    rw [hdc, pow10_eq (p + 1) (by omega)]
    simp only [Option.map_some, Option.bind_some]
    by_cases hcar : roundAt m e (e + k) = 10 ^ (p + 1)
    · rw [if_pos hcar, if_pos (decide_eq_true hcar)]
      have fin : ∀ sub : Int, sub = leaderColumns sign neg + 1 + b2i (alt || decide ((p : Int) ≠ 0)) + p + 4 +
          c2i (e + (numeral 10 m).length > 99 ∨ e + (numeral 10 m).length < -99) →
          Good gs rep alt ⟨10 ^ p, p, some (sciExp m e + 1)⟩ sign neg fill pad0 { d with
            sep := 0, form := .sci, digcount := 1, showpoint := alt || decide ((p : Int) ≠ 0), sub := sub, extra := (p : Int), m := 1,
            e := e + (k : Int) + ((p + 1 : Nat) : Int) } := by
        intro sub hsub
        refine good_sci ⟨hs.sg.char, hs.sg.shown⟩ hs.fill hs.pad0 rfl ?_ ?_ ?_ ?_ ?_ ?_ ?_ ?_ rfl ?_ ?_ <;> dsimp only
        · congr 1; unfold sciExp; omega
        · omega
        · decide
        · rw [one_len]; rfl
        · omega
        · rw [Int.toNat_natCast, Nat.one_mul]
        · rw [one_len]; omega
        · rw [hpt]
        · rw [hsub, show e + (k : Int) + ((p + 1 : Nat) : Int) + 1 - 1 = e + (numeral 10 m).length by omega]
        · omega
      by_cases h100 : e + (k : Int) + ((p + 1 : Nat) : Int) = 100
      · rw [if_pos h100]
        refine ⟨_, rfl, fin _ ?_⟩
        dsimp only
        unfold c2i
        rw [if_neg (by omega), if_pos (by omega)]; omega
      · rw [if_neg h100]
        by_cases h99 : e + (k : Int) + ((p + 1 : Nat) : Int) = -99
        · rw [if_pos h99]
          refine ⟨_, rfl, fin _ ?_⟩
          dsimp only
          unfold c2i
          rw [if_pos (by omega), if_neg (by omega)]; omega
        · rw [if_neg h99]
          refine ⟨_, rfl, fin _ ?_⟩
          dsimp only
          unfold c2i
          by_cases h : ((numeral 10 m).length : Int) + e - 1 > 99 ∨ ((numeral 10 m).length : Int) + e - 1 < -99
          · rw [if_pos h, if_pos (by omega)]; omega
          · rw [if_neg h, if_neg (by omega)]; omega
    · rw [if_neg hcar, decide_eq_false hcar, if_neg Bool.false_ne_true]
      refine ⟨_, rfl, ?_⟩
      refine good_sci ⟨hs.sg.char, hs.sg.shown⟩ hs.fill hs.pad0 rfl ?_ ?_ ?_ ?_ ?_ ?_ ?_ ?_ rfl ?_ ?_ <;> dsimp only
      · congr 1; unfold sciExp; omega
      · omega
      · omega
      · rw [hr3 hcar]
      · omega
      · simp
      · rw [hr3 hcar]; simp
      · rw [hpt]
      · rw [show e + (k : Int) + ((p + 1 : Nat) : Int) - 1 = (numeral 10 m).length + e - 1 by omega]; omega
      · decide

include hg

set_option maxHeartbeats 2000000 in
theorem withPrecisionFixed_ok
    (hsep : (split gs rep (numeral 10 (roundAt m e (-(p : Int)) / 10 ^ p)).length).length =
      (split gs rep (max 1 ((numeral 10 m).length + e)).toNat).length) :
    ∃ d', withPrecisionFixed (ctor2 (args gs rep)) p width al alt d = initFill d' width (max d'.sub d'.pad0) al ∧
    Good gs rep alt (shape gs rep .fixed (some p) alt m e) sign neg fill pad0 d' := by
  have hc : countDigits 10 8 d.m = (numeral 10 m).length := by rw [hs.m]; exact count_eq m hd.lt64
  have hp1 := len_pos10 m
  have hl := hd.len
  have hlo := hd.lo
  have hhi := hd.hi
  have hpt : decide ((p : Int) ≠ 0) = decide (0 < p) := by rw [decide_eq_decide]; omega
  have hml := lt_of_len m _ (le_refl _)
  unfold withPrecisionFixed shape
  dsimp only
  rw [hc, hs.e, hs.m, hs.sub]
  by_cases hx : (p : Int) - (if e < 0 then -e else 0) ≤ -((numeral 10 m).length : Int)
  · rw [if_pos hx, pow10_eq _ (by omega)]
    have he : e < 0 := by by_contra hc; rw [if_neg hc] at hx; omega
    rw [if_pos he] at hx ⊢
    simp only [Option.map_some, Option.bind_some]
    -- the unit is not less than 10^len
    have hk : ∃ k : Nat, 1 ≤ k ∧ -(p : Int) = e + k ∧ (numeral 10 m).length ≤ k := ⟨(-(p : Int) - e).toNat, by omega, by omega, by omega⟩
    obtain ⟨k, hk1, hk2, hk3⟩ := hk
    have hr := roundAt_drop m k e hk1
    have hmk : m < 10 ^ k := lt_of_lt_of_le hml (Nat.pow_le_pow_right (by decide) hk3)
    rw [← hk2, Nat.div_eq_of_lt hmk, Nat.mod_eq_of_lt hmk] at hr
    by_cases hup : (p : Int) - -e = -((numeral 10 m).length : Int) ∧ m > 10 ^ (numeral 10 m).length / 2
    · rw [if_pos hup]
      have hkl : k = (numeral 10 m).length := by omega
      rw [if_pos (.inl (by rw [hkl]; exact hup.2))] at hr
      refine ⟨_, rfl, ?_⟩
      refine good_fixed hg ⟨hs.sg.char, hs.sg.shown⟩ hs.fill hs.pad0 rfl rfl ?_ ?_ ?_ ?_ ?_ ?_ ?_ ?_ ?_ ?_ ?_ ?_ <;> dsimp only
      · decide
      · rw [one_len]; rfl
      · intro h; omega
      · rw [hs.extra]
      · rw [hs.extra, hr, show (e + ((numeral 10 m).length : Int)).toNat = 0 by omega]; rfl
      · rw [hs.extra]; omega
      · rw [hpt]
      · rw [sepCount_eq gs rep hg, show (max 1 (1 + (e + ((numeral 10 m).length : Int)))).toNat = 1 by omega, split_one gs rep hg]; rfl
      · rw [hs.extra]; split_ifs <;> omega
      · omega
      · omega
      · rw [hs.extra]; decide
    · rw [if_neg hup]
      have hr0 : roundAt m e (-(p : Int)) = 0 := by
        rw [hr, if_neg]
        rintro (h | ⟨_, h⟩)
        · apply hup
          have hkl : k = (numeral 10 m).length := by
            by_contra hne
            have : 10 ^ ((numeral 10 m).length + 1) ≤ 10 ^ k := Nat.pow_le_pow_right (by decide) (by omega)
            rw [Nat.pow_succ] at this
            omega
          exact ⟨by omega, by rw [← hkl]; exact h⟩
        · simp at h
      refine ⟨_, rfl, ?_⟩
      refine good_fixed hg ⟨hs.sg.char, hs.sg.shown⟩ hs.fill hs.pad0 rfl rfl ?_ ?_ ?_ ?_ ?_ ?_ ?_ ?_ ?_ ?_ ?_ ?_ <;> dsimp only
      · decide
      · rw [zero_len]; rfl
      · intro _; rfl
      · omega
      · rw [hr0]; simp
      · omega
      · rw [hpt]
      · rw [sepCount_eq gs rep hg, show (max 1 ((1 : Int) + 0)).toNat = 1 by decide, split_one gs rep hg]; rfl
      · rw [if_neg (by decide)]; omega
      · omega
      · omega
      · omega
  · rw [if_neg hx]
    have hid : (if ((numeral 10 m).length : Int) > -e then ((numeral 10 m).length : Int) + e else 1) = max 1 ((numeral 10 m).length + e) := by
      split_ifs <;> omega
    rw [hid]
    have hsc : sepCount (ctor2 (args gs rep)) (max 1 ((numeral 10 m).length + e)) = sepCount (ctor2 (args gs rep)) ((numeral 10 m).length + e) := by
      rw [sepCount_eq gs rep hg, sepCount_eq gs rep hg, show max 1 (max 1 (((numeral 10 m).length : Int) + e)) = max 1 ((numeral 10 m).length + e) by omega]
    rw [hsc]
    by_cases hx0 : (p : Int) - (if e < 0 then -e else 0) ≥ 0
    · rw [if_pos hx0, Option.bind_some]
      refine ⟨_, rfl, ?_⟩
      refine good_fixed hg ⟨hs.sg.char, hs.sg.shown⟩ hs.fill hs.pad0 rfl rfl ?_ ?_ ?_ ?_ ?_ ?_ ?_ ?_ ?_ ?_ ?_ ?_ <;> dsimp only
      · exact hd.lt
      · exact hd.zero
      · exact hx0
      · rw [roundAt_exact _ _ _ (by split_ifs at hx0 <;> omega), Nat.mul_assoc, ← Nat.pow_add]
        congr 2; split_ifs at hx0 ⊢ <;> omega
      · split_ifs at hx0 ⊢ <;> omega
      · rw [hpt]
      · split_ifs <;> omega
      · omega
      · omega
      · split_ifs <;> omega
    · rw [if_neg hx0]
      have he : e < 0 := by by_contra hc; rw [if_neg hc] at hx0; omega
      rw [if_pos he] at hx hx0 ⊢
      have hk : ∃ k : Nat, 1 ≤ k ∧ -(p : Int) = e + k ∧ k < (numeral 10 m).length := ⟨(-(p : Int) - e).toNat, by omega, by omega, by omega⟩
      obtain ⟨k, hk1, hk2, hk3⟩ := hk
      rw [dropDigits_eq k hk1 (by omega) _ (by omega), Option.bind_some]
      obtain ⟨hr1, hr2, hr3⟩ := round_len m k e hk1 hk3
      dsimp only
      rw [← hk2] at hr1 hr2 hr3 ⊢
      have hpw : 10 ^ ((numeral 10 m).length - k) ≤ 10 ^ 16 := Nat.pow_le_pow_right (by decide) (by omega)
      have hdc : ((numeral 10 m).length : Int) - k = (((numeral 10 m).length - k : Nat) : Int) := by omega
      unfold carried
      dsimp only
      rw [hdc, pow10_eq _ (by omega)]
      simp only [Option.map_some, Option.bind_some]
      by_cases hcar : roundAt m e (-(p : Int)) = 10 ^ ((numeral 10 m).length - k)
      · rw [decide_eq_true hcar, if_pos rfl]
        by_cases hle : -(p : Int) + ((numeral 10 m).length - k : Nat) ≤ 0
        · rw [if_pos hle]
          refine ⟨_, rfl, ?_⟩
          refine good_fixed hg ⟨hs.sg.char, hs.sg.shown⟩ hs.fill hs.pad0 rfl rfl ?_ ?_ ?_ ?_ ?_ ?_ ?_ ?_ ?_ ?_ ?_ ?_ <;> dsimp only
          · decide
          · rw [one_len]; rfl
          · intro h; omega
          · omega
          · rw [hcar, show (-(p : Int) + ((numeral 10 m).length - k : Nat)).toNat = 0 by omega, Nat.pow_zero, Nat.one_mul]
            congr 1; omega
          · omega
          · rw [hpt]
          · rw [sepCount_eq gs rep hg, sepCount_eq gs rep hg, show (max 1 (((numeral 10 m).length : Int) + e)).toNat = 1 by omega, show (max 1 ((1 : Int) + (-(p : Int) + ((numeral 10 m).length - k : Nat)))).toNat = 1 by omega]
          · split_ifs <;> omega
          · omega
          · omega
          · omega
        · rw [if_neg hle]
          have hint : roundAt m e (-(p : Int)) / 10 ^ p = 10 ^ ((numeral 10 m).length - k - p) := by
            rw [hcar, Nat.pow_div (by omega) (by decide)]
          have hintl : (numeral 10 (10 ^ ((numeral 10 m).length - k - p))).length = 1 + ((numeral 10 m).length - k - p) := by
            have := len_mul 1 ((numeral 10 m).length - k - p) (by decide)
            rwa [Nat.one_mul, one_len] at this
          rw [hint, hintl] at hsep
          refine ⟨_, rfl, ?_⟩
          refine good_fixed hg ⟨hs.sg.char, hs.sg.shown⟩ hs.fill hs.pad0 rfl rfl ?_ ?_ ?_ ?_ ?_ ?_ ?_ ?_ ?_ ?_ ?_ ?_ <;> dsimp only
          · decide
          · rw [one_len]; rfl
          · intro h; omega
          · omega
          · rw [hcar, Nat.one_mul, ← Nat.pow_add]; congr 1; omega
          · omega
          · rw [hpt]
          · rw [sepCount_eq gs rep hg, sepCount_eq gs rep hg, ← hsep]
            congr 4; omega
          · split_ifs <;> omega
          · omega
          · omega
          · omega
      · rw [decide_eq_false hcar, if_neg Bool.false_ne_true]
        refine ⟨_, rfl, ?_⟩
        refine good_fixed hg ⟨hs.sg.char, hs.sg.shown⟩ hs.fill hs.pad0 rfl rfl ?_ ?_ ?_ ?_ ?_ ?_ ?_ ?_ ?_ ?_ ?_ ?_ <;> dsimp only
        · omega
        · rw [hr3 hcar]
        · intro h
          have : 0 < 10 ^ ((numeral 10 m).length - k - 1) := Nat.pow_pos (by decide)
          omega
        · omega
        · rw [show (-(p : Int)).toNat = 0 by omega]; simp
        · simp
        · rw [hpt]
        · congr 1; omega
        · split_ifs <;> omega
        · omega
        · omega
        · decide

end

end Strf.Float

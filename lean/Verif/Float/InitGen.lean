import Verif.Float.InitPrec
/-
Lemmas: the initialization of the data in the general notation, with precision.
-/
namespace Strf.Float
open Strf.Float.Spec hiding Notation
open Strf.IntDigits Strf.IntDigits.Spec Strf.Numpunct Strf.Numpunct.Spec Strf.Print
open Strf.IntPrinter (b2n b2i AlignFmt signChar printFill)
open Strf.IntPrinter.Spec (Showsign Align Layout before times)

theorem strip_mul (m f k : Nat) : strip (m * 10 ^ k) (f + k) = strip m f := by
  induction k with
  | zero => simp
  | succ k ih =>
    rw [← Nat.add_assoc, strip, if_pos (by rw [Nat.pow_succ, ← Nat.mul_assoc]; exact Nat.mul_mod_left _ _), Nat.pow_succ, ← Nat.mul_assoc,
      Nat.mul_div_cancel _ (by decide), ih]

theorem strip_id (m f : Nat) (h : m % 10 ≠ 0 ∨ f = 0) : strip m f = (m, f) := by
  cases f with
  | zero => rfl
  | succ f => rw [strip, if_neg (by omega)]

theorem trimLoop_ok (I : Int) (fuel : Nat) : ∀ d : Data, d.m ≠ 0 → (numeral 10 d.m).length ≤ fuel →
    ∃ r m' : Nat, r ≤ (d.digcount - I).toNat ∧ d.m = m' * 10 ^ r ∧ strip d.m (d.digcount - I).toNat = (m', (d.digcount - I).toNat - r) ∧
      trimLoop I fuel d = some ({ d with m := m', digcount := d.digcount - r, sub := d.sub - r, e := d.e + r },
        decide (0 < (d.digcount - I).toNat - r)) := by
  induction fuel with
  | zero => intro d _ h; have := len_pos10 d.m; omega
  | succ fuel ih =>
    intro d h0 hl
    by_cases hI : d.digcount ≤ I
    · refine ⟨0, d.m, by omega, by simp, ?_, ?_⟩
      · rw [show (d.digcount - I).toNat = 0 by omega]; rfl
      · unfold trimLoop
        rw [if_pos hI, show (d.digcount - I).toNat = 0 by omega]
        simp
    · by_cases hm : d.m % 10 ≠ 0
      · refine ⟨0, d.m, by omega, by simp, strip_id _ _ (.inl hm), ?_⟩
        unfold trimLoop
        rw [if_neg hI, if_pos hm, decide_eq_true (by omega)]
        simp
      · have h10 : 10 ≤ d.m := by omega
        have hlen := len_ge d.m h10
        obtain ⟨r, m', h1, h2, h3, h4⟩ := ih { d with m := d.m / 10, digcount := d.digcount - 1, sub := d.sub - 1, e := d.e + 1 }
          (by dsimp only; omega) (by dsimp only; omega)
        dsimp only at h1 h2 h3 h4
        have hf : (d.digcount - I).toNat = (d.digcount - 1 - I).toNat + 1 := by omega
        refine ⟨r + 1, m', by omega, ?_, ?_, ?_⟩
        · rw [Nat.pow_succ, ← Nat.mul_assoc, ← h2]; omega
        · rw [hf, strip, if_pos (by omega), h3]; congr 1; omega
        · rw [trimLoop, if_neg hI, if_neg hm, h4, hf, show (d.digcount - 1 - I).toNat + 1 - (r + 1) = (d.digcount - 1 - I).toNat - r by omega]
          congr 2
          rw [Data.mk.injEq]
          exact ⟨rfl, rfl, rfl, rfl, rfl, by push_cast; omega, rfl, rfl, by push_cast; omega, rfl, rfl, rfl, rfl, rfl, by push_cast; omega⟩

/-- the shape of a number with `P` significant digits `v` and the exponent `x` -/
def genShape (P : Nat) (alt : Bool) (v : Nat) (x : Int) : Shape :=
  let frac := if x < -4 ∨ (P : Int) ≤ x then P - 1 else ((P : Int) - 1 - x).toNat
  let exp := if x < -4 ∨ (P : Int) ≤ x then some x else none
  if alt then ⟨v, frac, exp⟩ else ⟨(strip v frac).1, (strip v frac).2, exp⟩

theorem shape_general (gs : List Nat) (rep alt : Bool) (p m : Nat) (e : Int) :
    shape gs rep .general (some p) alt m e = genShape (max p 1) alt (significant (max p 1) m e).1 (significant (max p 1) m e).2 := rfl

section
variable {gs : List Nat} {rep : Bool} (hg : Valid gs rep) {sign : Showsign} {neg : Bool} {fill : Nat} {pad0 : Int}
  {d : Data} (width : Int) (al : Align) (alt : Bool) (p : Nat) (hp : p ≤ 2 ^ 29)

include hg hp

set_option maxHeartbeats 2000000 in
theorem general1digit_ok (sg : SignOk sign neg d) (hfill : d.fill = fill) (hpad0 : d.pad0 = pad0) (hm : d.m = 1) (hdc : d.digcount = 1)
    (hex : d.extra = 0) (hlo : -900 ≤ d.e) (hhi : d.e ≤ 900)
    (hsci : d.e < -4 ∨ ((max p 1 : Nat) : Int) ≤ d.e → d.sep = 0)
    (hfix : ¬(d.e < -4 ∨ ((max p 1 : Nat) : Int) ≤ d.e) → leaderColumns sign neg = 0)
    (hsep : d.e < 0 → d.sep = 0) :
    ∃ d', general1digit (ctor2 (args gs rep)) p width al alt d = initFill d' width (max d'.sub d'.pad0) al ∧
    Good gs rep alt (genShape (max p 1) alt (10 ^ (max p 1 - 1)) d.e) sign neg fill pad0 d' := by
  have hP : (if (p : Int) = 0 then 1 else (p : Int)) = ((max p 1 : Nat) : Int) := by split_ifs <;> omega
  have hP1 : 1 ≤ max p 1 := by omega
  have hP2 : max p 1 ≤ 2 ^ 29 := by omega
  unfold general1digit genShape
  dsimp only
  rw [hP]
  generalize max p 1 = P at hP1 hP2 hsci hfix ⊢
  have hlead : (leaderColumns sign neg : Int) = b2i d.showsign := sg.columns
  have hsg : ∀ d' : Data, d'.sign = d.sign → d'.showsign = d.showsign → SignOk sign neg d' := fun d' h1 h2 => ⟨by rw [h1, sg.char], by rw [h2, sg.shown]⟩
  by_cases hs : d.e < -4 ∨ (P : Int) ≤ d.e
  · simp only [if_pos hs]
    have hst : strip (10 ^ (P - 1)) (P - 1) = (1, 0) := by
      have := strip_mul 1 0 (P - 1)
      rw [Nat.one_mul, Nat.zero_add] at this
      rw [this]; rfl
    cases alt
    · simp only [Bool.false_eq_true, if_false]
      rw [hst]
      refine ⟨_, rfl, ?_⟩
      refine good_sci (hsg _ rfl rfl) hfill hpad0 rfl ?_ ?_ ?_ ?_ ?_ ?_ ?_ ?_ (hsci hs) ?_ ?_ <;> dsimp only
      · rw [hdc]; congr 1; omega
      · rw [hdc]; omega
      · rw [hm]; decide
      · rw [hdc, hm, one_len]; rfl
      · rw [hex]
      · rw [hm, hex]; rfl
      · rw [hm, hex, one_len]; rfl
      · rfl
      · rw [hdc, hex, hlead, show d.e + 1 - 1 = d.e by omega]; unfold c2i; show _ = _ + 1 + 0 + 0 + 4 + _; omega
      · rw [hex]; decide
    · simp only [if_true]
      refine ⟨_, rfl, ?_⟩
      refine good_sci (hsg _ rfl rfl) hfill hpad0 rfl ?_ ?_ ?_ ?_ ?_ ?_ ?_ ?_ (hsci hs) ?_ ?_ <;> dsimp only
      · rw [hdc]; congr 1; omega
      · rw [hdc]; omega
      · rw [hm]; decide
      · rw [hdc, hm, one_len]; rfl
      · omega
      · rw [hm, Nat.one_mul]; congr 1; omega
      · rw [hm, one_len]; omega
      · rfl
      · rw [hdc, hlead, show d.e + 1 - 1 = d.e by omega]; show _ = _ + 1 + 1 + _ + 4 + _; omega
      · omega
  · simp only [if_neg hs]
    have hl0 := hfix hs
    by_cases he : d.e < 0
    · simp only [if_pos he]
      cases alt
      · simp only [Bool.false_eq_true, if_false]
        have hst : strip (10 ^ (P - 1)) ((P : Int) - 1 - d.e).toNat = (1, (-d.e).toNat) := by
          have := strip_mul 1 (-d.e).toNat (P - 1)
          rw [Nat.one_mul, strip_id 1 _ (.inl (by decide))] at this
          rw [← this]; congr 1; omega
        rw [hst]
        refine ⟨_, rfl, ?_⟩
        refine good_fixed hg (hsg _ rfl rfl) hfill hpad0 rfl rfl ?_ ?_ ?_ ?_ ?_ ?_ ?_ ?_ ?_ ?_ ?_ ?_ <;> dsimp only
        · rw [hm]; decide
        · rw [hdc, hm, one_len]; rfl
        · intro h; omega
        · rw [hex]
        · rw [hm, hex, show d.e.toNat = 0 by omega]; rfl
        · rw [hex]; simp
        · rw [Bool.false_or, decide_eq_true]; omega
        · rw [hsep he, sepCount_eq gs rep hg, hdc, show (max 1 (1 + d.e)).toNat = 1 by omega, split_one gs rep hg]; rfl
        · rw [hl0, hsep he, hex, if_pos he, hdc]; show _ = _ + _ + 0 + 1 + _ + _; omega
        · omega
        · omega
        · rw [hex]; decide
      · simp only [if_true]
        refine ⟨_, rfl, ?_⟩
        refine good_fixed hg (hsg _ rfl rfl) hfill hpad0 rfl rfl ?_ ?_ ?_ ?_ ?_ ?_ ?_ ?_ ?_ ?_ ?_ ?_ <;> dsimp only
        · rw [hm]; decide
        · rw [hdc, hm, one_len]; rfl
        · intro h; omega
        · omega
        · rw [hm, show d.e.toNat = 0 by omega, Nat.pow_zero, Nat.one_mul]; congr 1; omega
        · omega
        · rfl
        · rw [hsep he, sepCount_eq gs rep hg, hdc, show (max 1 (1 + d.e)).toNat = 1 by omega, split_one gs rep hg]; rfl
        · rw [hl0, hsep he, if_pos he, hdc]; show _ = _ + _ + 0 + 1 + _ + _; omega
        · omega
        · omega
        · omega
    · simp only [if_neg he]
      have hsc : (separatorsCount (ctor2 (args gs rep)) (1 + d.e).toNat : Int) = sepCount (ctor2 (args gs rep)) (1 + d.e) := by
        rw [sepCount_eq gs rep hg, separators_count_exact gs rep hg, show (max 1 (1 + d.e)) = 1 + d.e by omega]
      rw [hsc]
      have hmax : max 1 (1 + d.e) = 1 + d.e := by omega
      cases alt
      · simp only [Bool.false_eq_true, if_false, false_and]
        have hst : strip (10 ^ (P - 1)) ((P : Int) - 1 - d.e).toNat = (10 ^ d.e.toNat, 0) := by
          have := strip_mul (10 ^ d.e.toNat) 0 ((P : Int) - 1 - d.e).toNat
          rw [← Nat.pow_add, Nat.zero_add, show d.e.toNat + ((P : Int) - 1 - d.e).toNat = P - 1 by omega] at this
          rw [this]; rfl
        rw [hst]
        refine ⟨_, rfl, ?_⟩
        refine good_fixed hg (hsg _ rfl rfl) hfill hpad0 rfl rfl ?_ ?_ ?_ ?_ ?_ ?_ ?_ ?_ ?_ ?_ ?_ ?_ <;> dsimp only
        · rw [hm]; decide
        · rw [hdc, hm, one_len]; rfl
        · intro h; omega
        · rw [hex]
        · rw [hm, hex]; simp
        · rw [hex]; omega
        · rfl
        · rw [hdc]
        · rw [hl0, hex, if_neg he, hdc, hmax]; omega
        · omega
        · omega
        · rw [hex]; decide
      · by_cases hpi : (P : Int) > 1 + d.e
        · simp only [hpi, if_true, and_true, true_and]
          refine ⟨_, rfl, ?_⟩
          refine good_fixed hg (hsg _ rfl rfl) hfill hpad0 rfl rfl ?_ ?_ ?_ ?_ ?_ ?_ ?_ ?_ ?_ ?_ ?_ ?_ <;> dsimp only
          · rw [hm]; decide
          · rw [hdc, hm, one_len]; rfl
          · intro h; omega
          · omega
          · rw [hm, Nat.one_mul, ← Nat.pow_add]; congr 1; omega
          · omega
          · rfl
          · rw [hdc]
          · rw [hl0, if_neg he, hdc, hmax]; omega
          · omega
          · omega
          · omega
        · simp only [hpi, if_true, and_false, if_false]
          refine ⟨_, rfl, ?_⟩
          refine good_fixed hg (hsg _ rfl rfl) hfill hpad0 rfl rfl ?_ ?_ ?_ ?_ ?_ ?_ ?_ ?_ ?_ ?_ ?_ ?_ <;> dsimp only
          · rw [hm]; decide
          · rw [hdc, hm, one_len]; rfl
          · intro h; omega
          · rw [hex]
          · rw [hm, hex, Nat.one_mul]; simp only [Int.toNat_zero, Nat.pow_zero, Nat.mul_one]; congr 1; omega
          · rw [hex]; omega
          · rfl
          · rw [hdc]
          · rw [hl0, hex, if_neg he, hdc, hmax]; omega
          · omega
          · omega
          · rw [hex]; decide

set_option maxHeartbeats 4000000 in
theorem generalRemove_ok {m : Nat} {e : Int} (sg : SignOk sign neg d) (hfill : d.fill = fill) (hpad0 : d.pad0 = pad0) (hm : d.m = m)
    (he : d.e = e) (hdc : d.digcount = (numeral 10 m).length) (hex : d.extra = 0) (hd : GoodDec m e)
    (hlen : max p 1 < (numeral 10 m).length) (xz : Int) (hxz : xz = (max p 1 : Nat) - (numeral 10 m).length) (I : Int)
    (hform : (d.form = .sci ∧ (sciExp m e < -4 ∨ ((max p 1 : Nat) : Int) ≤ sciExp m e) ∧ I = 1 ∧ d.sep = 0 ∧
        d.sub = leaderColumns sign neg + (4 + c2i ((numeral 10 m).length + e - 1 > 99 ∨ (numeral 10 m).length + e - 1 < -99)) + (max p 1 : Nat)) ∨
      (d.form = .fixed ∧ ¬(sciExp m e < -4 ∨ ((max p 1 : Nat) : Int) ≤ sciExp m e) ∧ e < 0 ∧ I = (numeral 10 m).length + e ∧
        d.sep = sepCount (ctor2 (args gs rep)) I ∧
        d.sub = leaderColumns sign neg + d.sep + (if e ≤ -((numeral 10 m).length : Int) then 1 - e else (numeral 10 m).length) - -xz))
    (hcarry : (significant (max p 1) m e).2 ≠ sciExp m e →
      (sciExp m e < ((max p 1 : Nat) : Int) → ((max p 1 : Nat) : Int) ≤ sciExp m e + 1 → (split gs rep (max p 1)).length = 1) ∧
      (¬ (sciExp m e + 1 < -4 ∨ ((max p 1 : Nat) : Int) ≤ sciExp m e + 1) → leaderColumns sign neg = 0))
    (halt : alt = true → (significant (max p 1) m e).2 = sciExp m e → (significant (max p 1) m e).1 % 10 = 0 →
      (if sciExp m e < -4 ∨ ((max p 1 : Nat) : Int) ≤ sciExp m e then max p 1 - 1 else (((max p 1 : Nat) : Int) - 1 - sciExp m e).toNat) = 0) :
    ∃ d', generalRemove (ctor2 (args gs rep)) p width al alt xz I d = initFill d' width (max d'.sub d'.pad0) al ∧
    Good gs rep alt (genShape (max p 1) alt (significant (max p 1) m e).1 (significant (max p 1) m e).2) sign neg fill pad0 d' := by
  have hP1 : 1 ≤ max p 1 := by omega
  have hP2 : max p 1 ≤ 2 ^ 29 := by omega
  have hl := hd.len
  have hlo := hd.lo
  have hhi := hd.hi
  have hone := fun d : Data => general1digit_ok (gs := gs) (rep := rep) hg (sign := sign) (neg := neg) (fill := fill) (pad0 := pad0) (d := d) width al alt p hp
  generalize hPd : max p 1 = P at hP1 hP2 hlen hxz hform hcarry halt hone ⊢
  obtain ⟨k, hk⟩ : ∃ k, (numeral 10 m).length - P = k := ⟨_, rfl⟩
  have hk1 : 1 ≤ k := by omega
  have hsr := significant_round P m e hlen
  rw [hk] at hsr
  unfold generalRemove
  rw [dropDigits_eq k hk1 (by omega) _ (by omega), Option.bind_some]
  obtain ⟨hr1, hr2, hr3⟩ := round_len m k e hk1 (by omega)
  rw [show (numeral 10 m).length - k = P by omega] at hr1 hr2 hr3
  have hdc' : ((numeral 10 m).length : Int) - k = (P : Int) := by omega
  unfold carried
  dsimp only
  rw [hdc, hdc', pow10_eq _ (by omega), hm, he]
  simp only [Option.map_some, Option.bind_some]
  have hpw : 10 ^ P ≤ 10 ^ 16 := Nat.pow_le_pow_right (by decide) (by omega)
  have hx1 : e + (k : Int) + P = sciExp m e + 1 := by unfold sciExp; omega
  have hx2 : sciExp m e = e + (numeral 10 m).length - 1 := rfl
  by_cases hcar : roundAt m e (e + k) = 10 ^ P
  · rw [if_pos hcar] at hsr
    rw [hsr] at hcarry ⊢
    dsimp only at hcarry ⊢
    obtain ⟨hc1, hc2⟩ := hcarry (by omega)
    rw [decide_eq_true hcar, if_pos rfl, hx1]
    refine hone { d with m := 1, e := sciExp m e + 1, digcount := 1 } ⟨sg.char, sg.shown⟩ hfill hpad0 rfl rfl hex
      (by dsimp only; omega) (by dsimp only; omega) ?_ hc2 ?_ <;> dsimp only
    · intro h
      rcases hform with ⟨_, _, _, h0, _⟩ | ⟨_, h1, h2, h3, h4, _⟩
      · exact h0
      · rw [h4, sepCount_eq gs rep hg, h3, show (max 1 (((numeral 10 m).length : Int) + e)).toNat = P by omega, hc1 (by omega) (by omega)]; rfl
    · intro h
      rcases hform with ⟨_, _, _, h0, _⟩ | ⟨_, h1, h2, h3, h4, _⟩
      · exact h0
      · rw [h4, sepCount_eq gs rep hg, h3, show (max 1 (((numeral 10 m).length : Int) + e)).toNat = 1 by omega, split_one gs rep hg]; rfl
  · rw [if_neg hcar] at hsr
    rw [hsr] at halt ⊢
    dsimp only at halt ⊢
    rw [decide_eq_false hcar, if_neg Bool.false_ne_true]
    have hrl := hr3 hcar
    have hr0 : roundAt m e (e + k) ≠ 0 := by
      have : 0 < 10 ^ (P - 1) := Nat.pow_pos (by decide)
      omega
    generalize roundAt m e (e + k) = v at hr0 hrl hr2 halt hcar ⊢
    clear hsr hr1 hr3 hcarry hone
    -- the number of digits after the point
    obtain ⟨f, hf⟩ : ∃ f : Nat, (if sciExp m e < -4 ∨ (P : Int) ≤ sciExp m e then P - 1 else ((P : Int) - 1 - sciExp m e).toNat) = f := ⟨_, rfl⟩
    rw [hf] at halt
    have hfI : ((P : Int) - I).toNat = f := by
      rcases hform with ⟨_, h1, h2, _⟩ | ⟨_, h1, h2, h3, _⟩
      · rw [if_pos h1] at hf; omega
      · rw [if_neg h1] at hf; omega
    obtain ⟨r, m', t1, t2, t3, t4⟩ := trimLoop_ok I 20
      { d with digcount := (P : Int), e := e + (k : Int), m := v } hr0 (by dsimp only; omega)
    dsimp only at t1 t2 t3 t4
    rw [hfI] at t1 t3 t4
    rw [t4, Option.bind_some]
    have hm'0 : m' ≠ 0 := by rintro rfl; simp at t2; exact hr0 t2
    have hm'l : (numeral 10 m').length + r = P := by
      have := len_mul m' r hm'0
      rw [← t2, hrl] at this; exact this.symm
    have hm'lt : m' < 10 ^ 17 := by
      have h1 : m' * 1 ≤ m' * 10 ^ r := Nat.mul_le_mul_left _ (Nat.pow_pos (by decide))
      omega
    have hm'1 := len_pos10 m'
    -- the shape is the stripped one
    have hsh : genShape P alt v (sciExp m e) = ⟨m', f - r, if sciExp m e < -4 ∨ (P : Int) ≤ sciExp m e then some (sciExp m e) else none⟩ := by
      unfold genShape
      dsimp only
      rw [hf]
      cases alt
      · rw [if_neg Bool.false_ne_true, t3]
      · rw [if_pos rfl]
        by_cases hv : v % 10 = 0
        · have hf0 := halt rfl rfl hv
          rw [hf0] at t3
          have t5 := congrArg Prod.fst t3
          dsimp only [strip] at t5
          rw [hf0, t5, show 0 - r = 0 by omega]
        · rw [strip_id v f (.inl hv)] at t3
          have t5 := congrArg Prod.fst t3
          have t6 := congrArg Prod.snd t3
          dsimp only at t5 t6
          rw [← t5, ← t6]
    rw [hsh]
    refine ⟨_, rfl, ?_⟩
    rcases hform with ⟨h1, h2, h3, h4, h5⟩ | ⟨h1, h2, h3, h4, h5, h6⟩
    · rw [if_pos h2] at hf ⊢
      have hfr : f - r = (numeral 10 m').length - 1 := by omega
      refine good_sci ⟨sg.char, sg.shown⟩ hfill hpad0 h1 ?_ ?_ hm'lt ?_ ?_ ?_ ?_ rfl h4 ?_ ?_ <;> dsimp only
      · congr 1; omega
      · omega
      · omega
      · rw [hex]
      · rw [hex]; simp
      · rw [hex]; simpa using hfr
      · rw [h5, hex, show e + (k : Int) + (r : Int) + ((P : Int) - r) - 1 = (numeral 10 m).length + e - 1 by omega]; omega
      · rw [hex]; decide
    · rw [if_neg h2] at hf ⊢
      have hee : (P : Int) - r + (e + k + r) = (numeral 10 m).length + e := by omega
      refine good_fixed hg ⟨sg.char, sg.shown⟩ hfill hpad0 h1 rfl hm'lt ?_ ?_ ?_ ?_ ?_ rfl ?_ ?_ ?_ ?_ ?_ <;> dsimp only
      · omega
      · intro h; exact absurd h hm'0
      · rw [hex]
      · rw [hex, show (e + (k : Int) + (r : Int)).toNat = 0 by omega]; simp
      · rw [hex]; omega
      · rw [h5, h4, hee]
      · rw [hee, h6, hex, hxz]
        rcases max_cases (((numeral 10 m).length : Int) + e) with ⟨a, b⟩ | ⟨a, b⟩ <;> rw [b] <;> split_ifs <;> omega
      · omega
      · omega
      · rw [hex]; decide

set_option maxHeartbeats 4000000 in
theorem withPrecisionGeneral_ok {m : Nat} {e : Int} (hs : StartOk sign neg fill pad0 m e d) (hd : GoodDec m e)
    (hcarry : (significant (max p 1) m e).2 ≠ sciExp m e →
      (sciExp m e < ((max p 1 : Nat) : Int) → ((max p 1 : Nat) : Int) ≤ sciExp m e + 1 → (split gs rep (max p 1)).length = 1) ∧
      (¬ (sciExp m e + 1 < -4 ∨ ((max p 1 : Nat) : Int) ≤ sciExp m e + 1) → leaderColumns sign neg = 0))
    (halt : alt = true → max p 1 < (numeral 10 m).length → (significant (max p 1) m e).2 = sciExp m e → (significant (max p 1) m e).1 % 10 = 0 →
      (if sciExp m e < -4 ∨ ((max p 1 : Nat) : Int) ≤ sciExp m e then max p 1 - 1 else (((max p 1 : Nat) : Int) - 1 - sciExp m e).toNat) = 0) :
    ∃ d', withPrecisionGeneral (ctor2 (args gs rep)) p width al alt d = initFill d' width (max d'.sub d'.pad0) al ∧
    Good gs rep alt (shape gs rep .general (some p) alt m e) sign neg fill pad0 d' := by
  rw [shape_general]
  have hc : countDigits 10 8 d.m = (numeral 10 m).length := by rw [hs.m]; exact count_eq m hd.lt64
  have hp1 := len_pos10 m
  have hl := hd.len
  have hlo := hd.lo
  have hhi := hd.hi
  have hPP : (if (p : Int) ≠ 0 then (p : Int) else 1) = ((max p 1 : Nat) : Int) := by split_ifs <;> omega
  have hx : sciExp m e = e + (numeral 10 m).length - 1 := rfl
  have hxc : ((numeral 10 m).length : Int) + e - 1 = sciExp m e := by omega
  unfold withPrecisionGeneral
  dsimp only
  rw [hPP, hc, hs.e, hs.m, hs.sub, hs.extra]
  have hrem := fun d : Data => fun h1 h2 h3 h4 h5 h6 h7 => generalRemove_ok (gs := gs) (rep := rep) hg (sign := sign) (neg := neg) (fill := fill) (pad0 := pad0)
    (d := d) width al alt p hp (m := m) (e := e) h1 h2 h3 h4 h5 h6 h7 hd
  have hP1 : 1 ≤ max p 1 := by omega
  have hP2 : max p 1 ≤ 2 ^ 29 := by omega
  generalize hPd : max p 1 = P at hP1 hP2 hcarry halt hrem ⊢
  have hcond : (((numeral 10 m).length : Int) + e < -3 ∨ ((numeral 10 m).length : Int) + e > P) = (sciExp m e < -4 ∨ (P : Int) ≤ sciExp m e) := by
    apply propext; omega
  simp only [hcond]
  by_cases hsci : sciExp m e < -4 ∨ (P : Int) ≤ sciExp m e
  · rw [if_pos hsci]
    have hm0 : m ≠ 0 := by
      intro h
      have h1 := hd.zero h
      rw [h, h1] at hsci
      unfold sciExp at hsci
      rw [zero_len] at hsci
      omega
    by_cases hlen : P < (numeral 10 m).length
    · rw [if_pos (by omega)]
      refine hrem _ ?_ ?_ ?_ ?_ ?_ ?_ ?_ hlen _ ?_ 1 ?_ hcarry (fun h => halt h hlen)
      · exact ⟨hs.sg.char, hs.sg.shown⟩
      · exact hs.fill
      · exact hs.pad0
      · rfl
      · rfl
      · rfl
      · rfl
      · rfl
      · exact .inl ⟨rfl, hsci, rfl, rfl, rfl⟩
    · rw [if_neg (by omega), significant_exact P m e (by omega)]
      dsimp only
      unfold genShape generalEnd
      dsimp only
      rw [if_pos hsci, if_pos hsci]
      cases alt
      · simp only [Bool.false_eq_true, if_false]
        have hst : strip (m * 10 ^ (P - (numeral 10 m).length)) (P - 1) = (m, (numeral 10 m).length - 1) := by
          have := strip_mul m ((numeral 10 m).length - 1) (P - (numeral 10 m).length)
          rw [strip_id m _ (.inl (hd.last hm0))] at this
          rw [← this]; congr 1; omega
        rw [hst]
        refine ⟨_, rfl, ?_⟩
        refine good_sci ⟨hs.sg.char, hs.sg.shown⟩ hs.fill hs.pad0 rfl ?_ ?_ ?_ ?_ ?_ ?_ ?_ ?_ rfl ?_ ?_ <;> dsimp only
        · rfl
        · omega
        · exact hd.lt
        · exact Int.le_refl _
        · simp
        · simp
        · rw [Bool.false_or, decide_eq_decide]; omega
        · rw [show e + ((numeral 10 m).length : Int) - 1 = (numeral 10 m).length + e - 1 by omega]; omega
        · decide
      · simp only [if_true]
        refine ⟨_, rfl, ?_⟩
        refine good_sci ⟨hs.sg.char, hs.sg.shown⟩ hs.fill hs.pad0 rfl ?_ ?_ ?_ ?_ ?_ ?_ ?_ rfl rfl ?_ ?_ <;> dsimp only
        · rfl
        · omega
        · exact hd.lt
        · omega
        · congr 2; omega
        · omega
        · rw [show e + ((numeral 10 m).length : Int) - 1 = (numeral 10 m).length + e - 1 by omega]; omega
        · omega
  · rw [if_neg hsci]
    by_cases he : e ≥ 0
    · rw [if_pos he, significant_exact P m e (by omega)]
      unfold genShape generalEnd
      dsimp only
      rw [if_neg hsci, if_neg hsci]
      have hmax : max 1 (((numeral 10 m).length : Int) + e) = (numeral 10 m).length + e := by omega
      cases alt
      · simp only [Bool.false_eq_true, if_false, false_and]
        have hst : strip (m * 10 ^ (P - (numeral 10 m).length)) ((P : Int) - 1 - sciExp m e).toNat = (m * 10 ^ e.toNat, 0) := by
          have := strip_mul (m * 10 ^ e.toNat) 0 ((P : Int) - 1 - sciExp m e).toNat
          rw [Nat.mul_assoc, ← Nat.pow_add, Nat.zero_add] at this
          rw [show P - (numeral 10 m).length = e.toNat + ((P : Int) - 1 - sciExp m e).toNat by omega, this]; rfl
        rw [hst]
        refine ⟨_, rfl, ?_⟩
        refine good_fixed hg ⟨hs.sg.char, hs.sg.shown⟩ hs.fill hs.pad0 rfl rfl ?_ ?_ ?_ ?_ ?_ ?_ rfl ?_ ?_ ?_ ?_ ?_ <;> dsimp only
        · exact hd.lt
        · exact hd.zero
        · exact Int.le_refl _
        · simp
        · omega
        · rw [hmax, if_neg (by omega)]; omega
        · omega
        · omega
        · decide
      · by_cases hpi : (P : Int) > (numeral 10 m).length + e
        · simp only [hpi, if_true, and_true, true_and]
          refine ⟨_, rfl, ?_⟩
          refine good_fixed hg ⟨hs.sg.char, hs.sg.shown⟩ hs.fill hs.pad0 rfl rfl ?_ ?_ ?_ ?_ ?_ ?_ rfl ?_ ?_ ?_ ?_ ?_ <;> dsimp only
          · exact hd.lt
          · exact hd.zero
          · omega
          · rw [Nat.mul_assoc, ← Nat.pow_add]; congr 2; omega
          · omega
          · rw [hmax, if_neg (by omega)]; omega
          · omega
          · omega
          · omega
        · simp only [hpi, if_true, and_false, if_false]
          refine ⟨_, rfl, ?_⟩
          refine good_fixed hg ⟨hs.sg.char, hs.sg.shown⟩ hs.fill hs.pad0 rfl rfl ?_ ?_ ?_ ?_ ?_ ?_ rfl ?_ ?_ ?_ ?_ ?_ <;> dsimp only
          · exact hd.lt
          · exact hd.zero
          · exact Int.le_refl _
          · simp only [Int.toNat_zero, Nat.pow_zero, Nat.mul_one]; congr 2; omega
          · omega
          · rw [hmax, if_neg (by omega)]; omega
          · omega
          · omega
          · decide
    · rw [if_neg he]
      have hm0 : m ≠ 0 := by intro h; have := hd.zero h; omega
      by_cases hlen : P < (numeral 10 m).length
      · rw [if_pos (by omega)]
        refine hrem _ ?_ ?_ ?_ ?_ ?_ ?_ ?_ hlen _ ?_ _ ?_ hcarry (fun h => halt h hlen)
        · exact ⟨hs.sg.char, hs.sg.shown⟩
        · exact hs.fill
        · exact hs.pad0
        · rfl
        · rfl
        · rfl
        · rfl
        · rfl
        · exact .inr ⟨rfl, hsci, by omega, rfl, rfl, rfl⟩
      · rw [if_neg (by omega), significant_exact P m e (by omega)]
        unfold genShape generalEnd
        dsimp only
        rw [if_neg hsci, if_neg hsci]
        cases alt
        · simp only [Bool.false_eq_true, if_false]
          have hst : strip (m * 10 ^ (P - (numeral 10 m).length)) ((P : Int) - 1 - sciExp m e).toNat = (m, (-e).toNat) := by
            have := strip_mul m (-e).toNat (P - (numeral 10 m).length)
            rw [strip_id m _ (.inl (hd.last hm0))] at this
            rw [← this]; congr 1; omega
          rw [hst]
          refine ⟨_, rfl, ?_⟩
          refine good_fixed hg ⟨hs.sg.char, hs.sg.shown⟩ hs.fill hs.pad0 rfl rfl ?_ ?_ ?_ ?_ ?_ ?_ ?_ ?_ ?_ ?_ ?_ ?_ <;> dsimp only
          · exact hd.lt
          · intro h; exact absurd h hm0
          · exact Int.le_refl _
          · rw [show e.toNat = 0 by omega]; simp
          · omega
          · rw [Bool.false_or, decide_eq_true]; omega
          · rw [if_pos (show e < 0 by omega)]
            rcases max_cases (((numeral 10 m).length : Int) + e) with ⟨a, b⟩ | ⟨a, b⟩ <;> rw [b] <;> split_ifs <;> omega
          · omega
          · omega
          · decide
        · simp only [if_true]
          refine ⟨_, rfl, ?_⟩
          refine good_fixed hg ⟨hs.sg.char, hs.sg.shown⟩ hs.fill hs.pad0 rfl rfl ?_ ?_ ?_ ?_ ?_ ?_ rfl ?_ ?_ ?_ ?_ ?_ <;> dsimp only
          · exact hd.lt
          · intro h; exact absurd h hm0
          · omega
          · rw [show e.toNat = 0 by omega, Nat.pow_zero, Nat.mul_one]; congr 2; omega
          · omega
          · rw [if_pos (show e < 0 by omega)]
            rcases max_cases (((numeral 10 m).length : Int) + e) with ⟨a, b⟩ | ⟨a, b⟩ <;> rw [b] <;> split_ifs <;> omega
          · omega
          · omega
          · omega

end

end Strf.Float

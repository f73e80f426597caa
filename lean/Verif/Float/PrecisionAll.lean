import Verif.Float.Near
/-
Lemmas: the initialization of the data with precision, in all cases.
-/
namespace Strf.Float
open Strf.Float.Spec hiding Notation
open Strf.IntDigits Strf.IntDigits.Spec Strf.Numpunct Strf.Numpunct.Spec Strf.Print
open Strf.IntPrinter (b2n b2i AlignFmt signChar printFill)
open Strf.IntPrinter.Spec (Showsign Align Layout before times)

theorem sepCount_nil (n : Int) : sepCount (ctor2 (args [] false)) n = 0 := by
  rw [sepCount_eq [] false valid_nil, split_nil_length]; rfl

section
variable {gs : List Nat} {rep : Bool} (hg : Valid gs rep) {sign : Showsign} {neg : Bool} {fill : Nat} {pad0 : Int} {m : Nat}
  {e : Int} {d : Data} (hs : StartOk sign neg fill pad0 m e d) (hd : GoodDec m e) (width : Int) (al : Align) (alt : Bool)
  (p : Nat) (hp : p ≤ 2 ^ 29)

include hs hd hp hg

set_option maxHeartbeats 4000000 in
/-- the fixed notation: the separators counted are those of the number not rounded -/
theorem withPrecisionFixed_all :
    ∃ d', withPrecisionFixed (ctor2 (args gs rep)) p width al alt d = initFill d' width (max d'.sub d'.pad0) al ∧
    Good [] false alt (shape gs rep .fixed (some p) alt m e) sign neg fill pad0 { d' with sep := 0, sub := d'.sub - d'.sep } ∧
    d'.form = .fixed ∧
    d'.sep = ((split gs rep (max 1 ((numeral 10 m).length + e)).toNat).length - 1 : Nat) ∧
    ((0 ≤ d'.e ∧ max 1 (((numeral 10 m).length : Int) + e) ≤ max 1 (d'.digcount + d'.e)) ∨ max 1 (d'.digcount + d'.e) = max 1 ((numeral 10 m).length + e)) ∧ d'.e ≤ 500 := by
  have hc : countDigits 10 8 d.m = (numeral 10 m).length := by rw [hs.m]; exact count_eq m hd.lt64
  have hp1 := len_pos10 m
  have hl := hd.len
  have hlo := hd.lo
  have hhi := hd.hi
  have hpt : decide ((p : Int) ≠ 0) = decide (0 < p) := by rw [decide_eq_decide]; omega
  have hml := lt_of_len m _ (le_refl _)
  unfold withPrecisionFixed shape
  dsimp only
  rw [hc, hs.e, hs.m, hs.sub]
  by_cases hx : (p : Int) - (if e < 0 then -e else 0) ≤ -((numeral 10 m).length : Int)
  · rw [if_pos hx, pow10_eq _ (by omega)]
    have he : e < 0 := by by_contra hc; rw [if_neg hc] at hx; omega
    rw [if_pos he] at hx ⊢
    simp only [Option.map_some, Option.bind_some]
    -- the unit is not less than 10^len
    have hk : ∃ k : Nat, 1 ≤ k ∧ -(p : Int) = e + k ∧ (numeral 10 m).length ≤ k := ⟨(-(p : Int) - e).toNat, by omega, by omega, by omega⟩
    obtain ⟨k, hk1, hk2, hk3⟩ := hk
    have hr := roundAt_drop m k e hk1
    have hmk : m < 10 ^ k := lt_of_lt_of_le hml (Nat.pow_le_pow_right (by decide) hk3)
    rw [← hk2, Nat.div_eq_of_lt hmk, Nat.mod_eq_of_lt hmk] at hr
    by_cases hup : (p : Int) - -e = -((numeral 10 m).length : Int) ∧ m > 10 ^ (numeral 10 m).length / 2
    · rw [if_pos hup]
      have hkl : k = (numeral 10 m).length := by omega
      rw [if_pos (.inl (by rw [hkl]; exact hup.2))] at hr
      refine ⟨_, rfl, ?_, rfl, ?_, by dsimp only; omega, by dsimp only; omega⟩
      swap
      · dsimp only
        rw [show (max 1 (((numeral 10 m).length : Int) + e)).toNat = 1 by omega, split_one gs rep hg]; rfl
      refine good_fixed valid_nil ⟨hs.sg.char, hs.sg.shown⟩ hs.fill hs.pad0 rfl rfl ?_ ?_ ?_ ?_ ?_ ?_ ?_ ?_ ?_ ?_ ?_ ?_ <;> dsimp only
      · decide
      · rw [one_len]; rfl
      · intro h; omega
      · rw [hs.extra]
      · rw [hs.extra, hr, show (e + ((numeral 10 m).length : Int)).toNat = 0 by omega]; rfl
      · rw [hs.extra]; omega
      · rw [hpt]
      · rw [sepCount_nil]
      · rw [hs.extra]; split_ifs <;> omega
      · omega
      · omega
      · rw [hs.extra]; decide
    · rw [if_neg hup]
      have hr0 : roundAt m e (-(p : Int)) = 0 := by
        rw [hr, if_neg]
        rintro (h | ⟨_, h⟩)
        · apply hup
          have hkl : k = (numeral 10 m).length := by
            by_contra hne
            have : 10 ^ ((numeral 10 m).length + 1) ≤ 10 ^ k := Nat.pow_le_pow_right (by decide) (by omega)
            rw [Nat.pow_succ] at this
            omega
          exact ⟨by omega, by rw [← hkl]; exact h⟩
        · simp at h
      refine ⟨_, rfl, ?_, rfl, ?_, by dsimp only; omega, by dsimp only; omega⟩
      swap
      · dsimp only
        rw [show (max 1 (((numeral 10 m).length : Int) + e)).toNat = 1 by omega, split_one gs rep hg]; rfl
      refine good_fixed valid_nil ⟨hs.sg.char, hs.sg.shown⟩ hs.fill hs.pad0 rfl rfl ?_ ?_ ?_ ?_ ?_ ?_ ?_ ?_ ?_ ?_ ?_ ?_ <;> dsimp only
      · decide
      · rw [zero_len]; rfl
      · intro _; rfl
      · omega
      · rw [hr0]; simp
      · omega
      · rw [hpt]
      · rw [sepCount_nil]
      · rw [if_neg (by decide)]; omega
      · omega
      · omega
      · omega
  · rw [if_neg hx]
    have hid : (if ((numeral 10 m).length : Int) > -e then ((numeral 10 m).length : Int) + e else 1) = max 1 ((numeral 10 m).length + e) := by
      split_ifs <;> omega
    rw [hid]
    have hsc : sepCount (ctor2 (args gs rep)) (max 1 ((numeral 10 m).length + e)) = sepCount (ctor2 (args gs rep)) ((numeral 10 m).length + e) := by
      rw [sepCount_eq gs rep hg, sepCount_eq gs rep hg, show max 1 (max 1 (((numeral 10 m).length : Int) + e)) = max 1 ((numeral 10 m).length + e) by omega]
    rw [hsc]
    by_cases hx0 : (p : Int) - (if e < 0 then -e else 0) ≥ 0
    · rw [if_pos hx0, Option.bind_some]
      refine ⟨_, rfl, ?_, rfl, ?_, by dsimp only; omega, by dsimp only; omega⟩
      swap
      · dsimp only
        rw [sepCount_eq gs rep hg]
      refine good_fixed valid_nil ⟨hs.sg.char, hs.sg.shown⟩ hs.fill hs.pad0 rfl rfl ?_ ?_ ?_ ?_ ?_ ?_ ?_ ?_ ?_ ?_ ?_ ?_ <;> dsimp only
      · exact hd.lt
      · exact hd.zero
      · exact hx0
      · rw [roundAt_exact _ _ _ (by split_ifs at hx0 <;> omega), Nat.mul_assoc, ← Nat.pow_add]
        congr 2; split_ifs at hx0 ⊢ <;> omega
      · split_ifs at hx0 ⊢ <;> omega
      · rw [hpt]
      · rw [sepCount_nil]
      · split_ifs <;> omega
      · omega
      · omega
      · split_ifs <;> omega
    · rw [if_neg hx0]
      have he : e < 0 := by by_contra hc; rw [if_neg hc] at hx0; omega
      rw [if_pos he] at hx hx0 ⊢
      have hk : ∃ k : Nat, 1 ≤ k ∧ -(p : Int) = e + k ∧ k < (numeral 10 m).length := ⟨(-(p : Int) - e).toNat, by omega, by omega, by omega⟩
      obtain ⟨k, hk1, hk2, hk3⟩ := hk
      rw [dropDigits_eq k hk1 (by omega) _ (by omega), Option.bind_some]
      obtain ⟨hr1, hr2, hr3⟩ := round_len m k e hk1 hk3
      dsimp only
      rw [← hk2] at hr1 hr2 hr3 ⊢
      have hpw : 10 ^ ((numeral 10 m).length - k) ≤ 10 ^ 16 := Nat.pow_le_pow_right (by decide) (by omega)
      have hdc : ((numeral 10 m).length : Int) - k = (((numeral 10 m).length - k : Nat) : Int) := by omega
      unfold carried
      dsimp only
      rw [hdc, pow10_eq _ (by omega)]
      simp only [Option.map_some, Option.bind_some]
      by_cases hcar : roundAt m e (-(p : Int)) = 10 ^ ((numeral 10 m).length - k)
      · rw [decide_eq_true hcar, if_pos rfl]
        by_cases hle : -(p : Int) + ((numeral 10 m).length - k : Nat) ≤ 0
        · rw [if_pos hle]
          refine ⟨_, rfl, ?_, rfl, ?_, by dsimp only; omega, by dsimp only; omega⟩
          swap
          · dsimp only
            rw [sepCount_eq gs rep hg]
          refine good_fixed valid_nil ⟨hs.sg.char, hs.sg.shown⟩ hs.fill hs.pad0 rfl rfl ?_ ?_ ?_ ?_ ?_ ?_ ?_ ?_ ?_ ?_ ?_ ?_ <;> dsimp only
          · decide
          · rw [one_len]; rfl
          · intro h; omega
          · omega
          · rw [hcar, show (-(p : Int) + ((numeral 10 m).length - k : Nat)).toNat = 0 by omega, Nat.pow_zero, Nat.one_mul]
            congr 1; omega
          · omega
          · rw [hpt]
          · rw [sepCount_nil]
          · split_ifs <;> omega
          · omega
          · omega
          · omega
        · rw [if_neg hle]
          have hint : roundAt m e (-(p : Int)) / 10 ^ p = 10 ^ ((numeral 10 m).length - k - p) := by
            rw [hcar, Nat.pow_div (by omega) (by decide)]
          have hintl : (numeral 10 (10 ^ ((numeral 10 m).length - k - p))).length = 1 + ((numeral 10 m).length - k - p) := by
            have := len_mul 1 ((numeral 10 m).length - k - p) (by decide)
            rwa [Nat.one_mul, one_len] at this
          refine ⟨_, rfl, ?_, rfl, ?_, by dsimp only; omega, by dsimp only; omega⟩
          swap
          · dsimp only
            rw [sepCount_eq gs rep hg]
          refine good_fixed valid_nil ⟨hs.sg.char, hs.sg.shown⟩ hs.fill hs.pad0 rfl rfl ?_ ?_ ?_ ?_ ?_ ?_ ?_ ?_ ?_ ?_ ?_ ?_ <;> dsimp only
          · decide
          · rw [one_len]; rfl
          · intro h; omega
          · omega
          · rw [hcar, Nat.one_mul, ← Nat.pow_add]; congr 1; omega
          · omega
          · rw [hpt]
          · rw [sepCount_nil]
          · split_ifs <;> omega
          · omega
          · omega
          · omega
      · rw [decide_eq_false hcar, if_neg Bool.false_ne_true]
        refine ⟨_, rfl, ?_, rfl, ?_, by dsimp only; omega, by dsimp only; omega⟩
        swap
        · dsimp only
          rw [sepCount_eq gs rep hg]
        refine good_fixed valid_nil ⟨hs.sg.char, hs.sg.shown⟩ hs.fill hs.pad0 rfl rfl ?_ ?_ ?_ ?_ ?_ ?_ ?_ ?_ ?_ ?_ ?_ ?_ <;> dsimp only
        · omega
        · rw [hr3 hcar]
        · intro h
          have : 0 < 10 ^ ((numeral 10 m).length - k - 1) := Nat.pow_pos (by decide)
          omega
        · omega
        · rw [show (-(p : Int)).toNat = 0 by omega]; simp
        · simp
        · rw [hpt]
        · rw [sepCount_nil]
        · split_ifs <;> omega
        · omega
        · omega
        · decide

end

theorem split_length_pos (gs : List Nat) (rep : Bool) (hg : Valid gs rep) (n : Nat) (hn : 1 ≤ n) : 1 ≤ (split gs rep n).length := by
  obtain ⟨m1, _, _⟩ := split_meaning gs rep hg n hn
  by_contra h
  rw [List.length_eq_zero_iff.mp (by omega : (split gs rep n).length = 0)] at m1
  simp at m1
  omega

/-- the shape of what is printed in the general notation: if digits were removed and rounding does not carry, trailing zeros are
removed even if they should not be -/
def genPrinted (P : Nat) (alt : Bool) (m : Nat) (e : Int) : Shape :=
  genShape P (alt && !(decide (P < (numeral 10 m).length) && decide ((significant P m e).2 = sciExp m e)))
    (significant P m e).1 (significant P m e).2

theorem genPrinted_exact (P : Nat) (alt : Bool) (m : Nat) (e : Int) (h : (numeral 10 m).length ≤ P) :
    genPrinted P alt m e = genShape P alt (m * 10 ^ (P - (numeral 10 m).length)) (sciExp m e) := by
  unfold genPrinted
  rw [significant_exact P m e h, decide_eq_false (show ¬ P < (numeral 10 m).length by omega)]
  simp

theorem exact_near {gs : List Nat} {rep alt : Bool} {sh : Shape} {sign : Showsign} {neg : Bool} {fill : Nat} {pad0 : Int} {width : Int}
    {al : Align} {q : Option (Data × Res)} {x : Int} {A B : Prop} [Decidable A] [Decidable B] {l n : Int}
    (h : ∃ d', q = initFill d' width (max d'.sub d'.pad0) al ∧ Good gs rep alt sh sign neg fill pad0 d') :
    ∃ d' s t, q = initFill d' width (max d'.sub d'.pad0) al ∧ d'.sub ≤ 2147483647 ∧ (d'.form = .sci ∧ s = 0 ∨ s = d'.sep) ∧
      t = (if x ≠ x ∧ A then l else 0) ∧ d'.sep - s = (if x ≠ x ∧ B then n else 0) ∧
      Good gs rep alt sh sign neg fill pad0 { d' with sep := s, sub := d'.sub + t } := by
  obtain ⟨d', h1, h2⟩ := h
  refine ⟨d', d'.sep, 0, h1, h2.bound, .inr rfl, by simp, by simp, ?_⟩
  simpa only [Int.add_zero] using h2

section
variable {gs : List Nat} {rep : Bool} (hg : Valid gs rep) {sign : Showsign} {neg : Bool} {fill : Nat} {pad0 : Int}
  {d : Data} (width : Int) (al : Align) (alt : Bool) (p : Nat) (hp : p ≤ 2 ^ 29)

include hg hp

set_option maxHeartbeats 2000000 in
theorem general1digit_all (sg : SignOk sign neg d) (hfill : d.fill = fill) (hpad0 : d.pad0 = pad0) (hm : d.m = 1) (hdc : d.digcount = 1)
    (hex : d.extra = 0) (hlo : -900 ≤ d.e) (hhi : d.e ≤ 900)
    (hsep : d.e < 0 → d.sep = 0) :
    ∃ d', general1digit (ctor2 (args gs rep)) p width al alt d = initFill d' width (max d'.sub d'.pad0) al ∧
    d'.sub ≤ 2147483647 ∧
    if d.e < -4 ∨ ((max p 1 : Nat) : Int) ≤ d.e then d'.form = .sci ∧ d'.sep = d.sep ∧
      Good gs rep alt (genShape (max p 1) alt (10 ^ (max p 1 - 1)) d.e) sign neg fill pad0 { d' with sep := 0, sub := d'.sub + 0 }
    else d'.form = .fixed ∧
      Good gs rep alt (genShape (max p 1) alt (10 ^ (max p 1 - 1)) d.e) sign neg fill pad0
        { d' with sep := d'.sep, sub := d'.sub + leaderColumns sign neg } := by
  have hP : (if (p : Int) = 0 then 1 else (p : Int)) = ((max p 1 : Nat) : Int) := by split_ifs <;> omega
  have hP1 : 1 ≤ max p 1 := by omega
  have hP2 : max p 1 ≤ 2 ^ 29 := by omega
  unfold general1digit genShape
  dsimp only
  rw [hP]
  generalize max p 1 = P at hP1 hP2 ⊢
  have hsb := sepCount_bound gs rep hg (1 + d.e)
  have hlcol := leaderColumns_le sign neg
  have hlead : (leaderColumns sign neg : Int) = b2i d.showsign := sg.columns
  have hsg : ∀ d' : Data, d'.sign = d.sign → d'.showsign = d.showsign → SignOk sign neg d' := fun d' h1 h2 => ⟨by rw [h1, sg.char], by rw [h2, sg.shown]⟩
  by_cases hs : d.e < -4 ∨ (P : Int) ≤ d.e
  · simp only [if_pos hs]
    have hst : strip (10 ^ (P - 1)) (P - 1) = (1, 0) := by
      have := strip_mul 1 0 (P - 1)
      rw [Nat.one_mul, Nat.zero_add] at this
      rw [this]; rfl
    cases alt
    · simp only [Bool.false_eq_true, if_false]
      rw [hst]
      refine ⟨_, rfl, ?_, rfl, rfl, ?_⟩
      · dsimp only; unfold c2i; (try split_ifs) <;> omega
      refine good_sci (hsg _ rfl rfl) hfill hpad0 rfl ?_ ?_ ?_ ?_ ?_ ?_ ?_ ?_ rfl ?_ ?_ <;> dsimp only
      · rw [hdc]; congr 1; omega
      · rw [hdc]; omega
      · rw [hm]; decide
      · rw [hdc, hm, one_len]; rfl
      · rw [hex]
      · rw [hm, hex]; rfl
      · rw [hm, hex, one_len]; rfl
      · rfl
      · rw [hdc, hex, hlead, show d.e + 1 - 1 = d.e by omega]; unfold c2i; show _ = _ + 1 + 0 + 0 + 4 + _; omega
      · rw [hex]; decide
    · simp only [if_true]
      refine ⟨_, rfl, ?_, rfl, rfl, ?_⟩
      · dsimp only; unfold c2i; (try split_ifs) <;> omega
      refine good_sci (hsg _ rfl rfl) hfill hpad0 rfl ?_ ?_ ?_ ?_ ?_ ?_ ?_ ?_ rfl ?_ ?_ <;> dsimp only
      · rw [hdc]; congr 1; omega
      · rw [hdc]; omega
      · rw [hm]; decide
      · rw [hdc, hm, one_len]; rfl
      · omega
      · rw [hm, Nat.one_mul]; congr 1; omega
      · rw [hm, one_len]; omega
      · rfl
      · rw [hdc, hlead, show d.e + 1 - 1 = d.e by omega]; show _ = _ + 1 + 1 + _ + 4 + _; omega
      · omega
  · simp only [if_neg hs]
    by_cases he : d.e < 0
    · simp only [if_pos he]
      cases alt
      · simp only [Bool.false_eq_true, if_false]
        have hst : strip (10 ^ (P - 1)) ((P : Int) - 1 - d.e).toNat = (1, (-d.e).toNat) := by
          have := strip_mul 1 (-d.e).toNat (P - 1)
          rw [Nat.one_mul, strip_id 1 _ (.inl (by decide))] at this
          rw [← this]; congr 1; omega
        rw [hst]
        refine ⟨_, rfl, ?_, rfl, ?_⟩
        · dsimp only
          try rw [hsep he]
          try rw [b2i_eq]
          (try split_ifs) <;> omega
        refine good_fixed hg (hsg _ rfl rfl) hfill hpad0 rfl rfl ?_ ?_ ?_ ?_ ?_ ?_ ?_ ?_ ?_ ?_ ?_ ?_ <;> dsimp only
        · rw [hm]; decide
        · rw [hdc, hm, one_len]; rfl
        · intro h; omega
        · rw [hex]
        · rw [hm, hex, show d.e.toNat = 0 by omega]; rfl
        · rw [hex]; simp
        · rw [Bool.false_or, decide_eq_true]; omega
        · rw [hsep he, sepCount_eq gs rep hg, hdc, show (max 1 (1 + d.e)).toNat = 1 by omega, split_one gs rep hg]; rfl
        · rw [hsep he, hex, if_pos he, hdc]; show _ = _ + _ + 0 + 1 + _ + _; omega
        · omega
        · omega
        · rw [hex]; decide
      · simp only [if_true]
        refine ⟨_, rfl, ?_, rfl, ?_⟩
        · dsimp only
          try rw [hsep he]
          try rw [b2i_eq]
          (try split_ifs) <;> omega
        refine good_fixed hg (hsg _ rfl rfl) hfill hpad0 rfl rfl ?_ ?_ ?_ ?_ ?_ ?_ ?_ ?_ ?_ ?_ ?_ ?_ <;> dsimp only
        · rw [hm]; decide
        · rw [hdc, hm, one_len]; rfl
        · intro h; omega
        · omega
        · rw [hm, show d.e.toNat = 0 by omega, Nat.pow_zero, Nat.one_mul]; congr 1; omega
        · omega
        · rfl
        · rw [hsep he, sepCount_eq gs rep hg, hdc, show (max 1 (1 + d.e)).toNat = 1 by omega, split_one gs rep hg]; rfl
        · rw [hsep he, if_pos he, hdc]; show _ = _ + _ + 0 + 1 + _ + _; omega
        · omega
        · omega
        · omega
    · simp only [if_neg he]
      have hsc : (separatorsCount (ctor2 (args gs rep)) (1 + d.e).toNat : Int) = sepCount (ctor2 (args gs rep)) (1 + d.e) := by
        rw [sepCount_eq gs rep hg, separators_count_exact gs rep hg, show (max 1 (1 + d.e)) = 1 + d.e by omega]
      rw [hsc]
      have hmax : max 1 (1 + d.e) = 1 + d.e := by omega
      cases alt
      · simp only [Bool.false_eq_true, if_false, false_and]
        have hst : strip (10 ^ (P - 1)) ((P : Int) - 1 - d.e).toNat = (10 ^ d.e.toNat, 0) := by
          have := strip_mul (10 ^ d.e.toNat) 0 ((P : Int) - 1 - d.e).toNat
          rw [← Nat.pow_add, Nat.zero_add, show d.e.toNat + ((P : Int) - 1 - d.e).toNat = P - 1 by omega] at this
          rw [this]; rfl
        rw [hst]
        refine ⟨_, rfl, ?_, rfl, ?_⟩
        · dsimp only
          try rw [hsep he]
          try rw [b2i_eq]
          (try split_ifs) <;> omega
        refine good_fixed hg (hsg _ rfl rfl) hfill hpad0 rfl rfl ?_ ?_ ?_ ?_ ?_ ?_ ?_ ?_ ?_ ?_ ?_ ?_ <;> dsimp only
        · rw [hm]; decide
        · rw [hdc, hm, one_len]; rfl
        · intro h; omega
        · rw [hex]
        · rw [hm, hex]; simp
        · rw [hex]; omega
        · rfl
        · rw [hdc]
        · rw [hex, if_neg he, hdc, hmax]; omega
        · omega
        · omega
        · rw [hex]; decide
      · by_cases hpi : (P : Int) > 1 + d.e
        · simp only [hpi, if_true, and_true, true_and]
          refine ⟨_, rfl, ?_, rfl, ?_⟩
          · dsimp only
            try rw [hsep he]
            try rw [b2i_eq]
            (try split_ifs) <;> omega
          refine good_fixed hg (hsg _ rfl rfl) hfill hpad0 rfl rfl ?_ ?_ ?_ ?_ ?_ ?_ ?_ ?_ ?_ ?_ ?_ ?_ <;> dsimp only
          · rw [hm]; decide
          · rw [hdc, hm, one_len]; rfl
          · intro h; omega
          · omega
          · rw [hm, Nat.one_mul, ← Nat.pow_add]; congr 1; omega
          · omega
          · rfl
          · rw [hdc]
          · rw [if_neg he, hdc, hmax]; omega
          · omega
          · omega
          · omega
        · simp only [hpi, if_true, and_false, if_false]
          refine ⟨_, rfl, ?_, rfl, ?_⟩
          · dsimp only
            try rw [hsep he]
            try rw [b2i_eq]
            (try split_ifs) <;> omega
          refine good_fixed hg (hsg _ rfl rfl) hfill hpad0 rfl rfl ?_ ?_ ?_ ?_ ?_ ?_ ?_ ?_ ?_ ?_ ?_ ?_ <;> dsimp only
          · rw [hm]; decide
          · rw [hdc, hm, one_len]; rfl
          · intro h; omega
          · rw [hex]
          · rw [hm, hex, Nat.one_mul]; simp only [Int.toNat_zero, Nat.pow_zero, Nat.mul_one]; congr 1; omega
          · rw [hex]; omega
          · rfl
          · rw [hdc]
          · rw [hex, if_neg he, hdc, hmax]; omega
          · omega
          · omega
          · rw [hex]; decide

set_option maxHeartbeats 4000000 in
theorem generalRemove_all {m : Nat} {e : Int} (sg : SignOk sign neg d) (hfill : d.fill = fill) (hpad0 : d.pad0 = pad0) (hm : d.m = m)
    (he : d.e = e) (hdc : d.digcount = (numeral 10 m).length) (hex : d.extra = 0) (hd : GoodDec m e)
    (hlen : max p 1 < (numeral 10 m).length) (xz : Int) (hxz : xz = (max p 1 : Nat) - (numeral 10 m).length) (I : Int)
    (hform : (d.form = .sci ∧ (sciExp m e < -4 ∨ ((max p 1 : Nat) : Int) ≤ sciExp m e) ∧ I = 1 ∧ d.sep = 0 ∧
        d.sub = leaderColumns sign neg + (4 + c2i ((numeral 10 m).length + e - 1 > 99 ∨ (numeral 10 m).length + e - 1 < -99)) + (max p 1 : Nat)) ∨
      (d.form = .fixed ∧ ¬(sciExp m e < -4 ∨ ((max p 1 : Nat) : Int) ≤ sciExp m e) ∧ e < 0 ∧ I = (numeral 10 m).length + e ∧
        d.sep = sepCount (ctor2 (args gs rep)) I ∧
        d.sub = leaderColumns sign neg + d.sep + (if e ≤ -((numeral 10 m).length : Int) then 1 - e else (numeral 10 m).length) - -xz)) :
    ∃ d' s t, generalRemove (ctor2 (args gs rep)) p width al alt xz I d = initFill d' width (max d'.sub d'.pad0) al ∧
    d'.sub ≤ 2147483647 ∧ (d'.form = .sci ∧ s = 0 ∨ s = d'.sep) ∧
    t = (if (significant (max p 1) m e).2 ≠ sciExp m e ∧ ¬ ((significant (max p 1) m e).2 < -4 ∨ ((max p 1 : Nat) : Int) ≤ (significant (max p 1) m e).2)
      then (leaderColumns sign neg : Int) else 0) ∧
    d'.sep - s = (if (significant (max p 1) m e).2 ≠ sciExp m e ∧ sciExp m e + 1 = ((max p 1 : Nat) : Int)
      then ((split gs rep (max p 1)).length : Int) - 1 else 0) ∧
    Good gs rep alt (genPrinted (max p 1) alt m e) sign neg fill pad0 { d' with sep := s, sub := d'.sub + t } := by
  have hP1 : 1 ≤ max p 1 := by omega
  have hP2 : max p 1 ≤ 2 ^ 29 := by omega
  have hl := hd.len
  have hlo := hd.lo
  have hhi := hd.hi
  have hone := fun d : Data => general1digit_all (gs := gs) (rep := rep) hg (sign := sign) (neg := neg) (fill := fill) (pad0 := pad0) (d := d) width al alt p hp
  generalize hPd : max p 1 = P at hP1 hP2 hlen hxz hform hone ⊢
  obtain ⟨k, hk⟩ : ∃ k, (numeral 10 m).length - P = k := ⟨_, rfl⟩
  have hk1 : 1 ≤ k := by omega
  have hsr := significant_round P m e hlen
  rw [hk] at hsr
  unfold generalRemove
  rw [dropDigits_eq k hk1 (by omega) _ (by omega), Option.bind_some]
  obtain ⟨hr1, hr2, hr3⟩ := round_len m k e hk1 (by omega)
  rw [show (numeral 10 m).length - k = P by omega] at hr1 hr2 hr3
  have hdc' : ((numeral 10 m).length : Int) - k = (P : Int) := by omega
  unfold carried
  dsimp only
  rw [hdc, hdc', pow10_eq _ (by omega), hm, he]
  simp only [Option.map_some, Option.bind_some]
  have hpw : 10 ^ P ≤ 10 ^ 16 := Nat.pow_le_pow_right (by decide) (by omega)
  have hx1 : e + (k : Int) + P = sciExp m e + 1 := by unfold sciExp; omega
  have hx2 : sciExp m e = e + (numeral 10 m).length - 1 := rfl
  by_cases hcar : roundAt m e (e + k) = 10 ^ P
  · rw [if_pos hcar] at hsr
    have hgp : genPrinted P alt m e = genShape P alt (10 ^ (P - 1)) (sciExp m e + 1) := by
      unfold genPrinted
      rw [hsr]
      dsimp only
      rw [decide_eq_false (show ¬ (sciExp m e + 1 = sciExp m e) by omega)]
      simp
    rw [hgp, hsr]
    dsimp only
    rw [decide_eq_true hcar, if_pos rfl, hx1]
    obtain ⟨d', h1, h2, h3⟩ := hone { d with m := 1, e := sciExp m e + 1, digcount := 1 } ⟨sg.char, sg.shown⟩ hfill hpad0 rfl rfl hex
      (by dsimp only; omega) (by dsimp only; omega) (by
        dsimp only
        intro h
        rcases hform with ⟨_, _, _, h0, _⟩ | ⟨_, h1, h2, h3, h4, _⟩
        · exact h0
        · rw [h4, sepCount_eq gs rep hg, h3, show (max 1 (((numeral 10 m).length : Int) + e)).toNat = 1 by omega, split_one gs rep hg]; rfl)
    dsimp only at h1 h3
    by_cases hx : sciExp m e + 1 < -4 ∨ (P : Int) ≤ sciExp m e + 1
    · rw [if_pos hx] at h3
      refine ⟨d', 0, 0, h1, h2, .inl ⟨h3.1, rfl⟩, ?_, ?_, h3.2.2⟩
      · rw [if_neg (fun h => h.2 hx)]
      · rw [h3.2.1]
        by_cases hP : sciExp m e + 1 = (P : Int)
        · rw [if_pos ⟨by omega, hP⟩]
          rcases hform with ⟨_, h0, _, _, _⟩ | ⟨_, h1, h2, h3, h4, _⟩
          · omega
          · have h5 := split_length_pos gs rep hg P (by omega)
            rw [h4, sepCount_eq gs rep hg, h3, show (max 1 (((numeral 10 m).length : Int) + e)).toNat = P by omega]; omega
        · rw [if_neg (fun h => hP h.2)]
          rcases hform with ⟨_, _, _, h0, _⟩ | ⟨_, h1, _⟩
          · omega
          · omega
    · rw [if_neg hx] at h3
      refine ⟨d', d'.sep, leaderColumns sign neg, h1, h2, .inr rfl, ?_, ?_, h3.2⟩
      · rw [if_pos ⟨by omega, hx⟩]
      · rw [if_neg (by omega)]; omega
  · rw [if_neg hcar] at hsr
    have hgp : genPrinted P alt m e = genShape P false (roundAt m e (e + k)) (sciExp m e) := by
      unfold genPrinted
      rw [hsr]
      dsimp only
      rw [decide_eq_true hlen]
      simp
    rw [hgp, hsr]
    dsimp only
    rw [decide_eq_false hcar, if_neg Bool.false_ne_true]
    have hrl := hr3 hcar
    have hr0 : roundAt m e (e + k) ≠ 0 := by
      have : 0 < 10 ^ (P - 1) := Nat.pow_pos (by decide)
      omega
    generalize roundAt m e (e + k) = v at hr0 hrl hr2 hcar ⊢
    clear hsr hr1 hr3 hone
    -- the number of digits after the point
    obtain ⟨f, hf⟩ : ∃ f : Nat, (if sciExp m e < -4 ∨ (P : Int) ≤ sciExp m e then P - 1 else ((P : Int) - 1 - sciExp m e).toNat) = f := ⟨_, rfl⟩
    have hfI : ((P : Int) - I).toNat = f := by
      rcases hform with ⟨_, h1, h2, _⟩ | ⟨_, h1, h2, h3, _⟩
      · rw [if_pos h1] at hf; omega
      · rw [if_neg h1] at hf; omega
    obtain ⟨r, m', t1, t2, t3, t4⟩ := trimLoop_ok I 20
      { d with digcount := (P : Int), e := e + (k : Int), m := v } hr0 (by dsimp only; omega)
    dsimp only at t1 t2 t3 t4
    rw [hfI] at t1 t3 t4
    rw [t4, Option.bind_some]
    have hm'0 : m' ≠ 0 := by rintro rfl; simp at t2; exact hr0 t2
    have hm'l : (numeral 10 m').length + r = P := by
      have := len_mul m' r hm'0
      rw [← t2, hrl] at this; exact this.symm
    have hm'lt : m' < 10 ^ 17 := by
      have h1 : m' * 1 ≤ m' * 10 ^ r := Nat.mul_le_mul_left _ (Nat.pow_pos (by decide))
      omega
    have hm'1 := len_pos10 m'
    -- the shape is the stripped one
    have hsh : genShape P false v (sciExp m e) = ⟨m', f - r, if sciExp m e < -4 ∨ (P : Int) ≤ sciExp m e then some (sciExp m e) else none⟩ := by
      unfold genShape
      dsimp only
      rw [hf]
      rw [if_neg Bool.false_ne_true, t3]
    rw [hsh]
    rw [if_neg (fun h => h.1 rfl), if_neg (fun h => h.1 rfl)]
    suffices hgood : ∀ d', d' = _ → Good gs rep alt _ sign neg fill pad0 d' by
      refine ⟨_, _, 0, rfl, ?_, .inr rfl, rfl, by dsimp only; omega, ?_⟩
      · exact (hgood _ rfl).bound
      · have := hgood _ rfl
        simpa only [Int.add_zero] using this
    intro d' hd'
    rw [hd']
    clear hd' d'
    rcases hform with ⟨h1, h2, h3, h4, h5⟩ | ⟨h1, h2, h3, h4, h5, h6⟩
    · rw [if_pos h2] at hf ⊢
      have hfr : f - r = (numeral 10 m').length - 1 := by omega
      refine good_sci ⟨sg.char, sg.shown⟩ hfill hpad0 h1 ?_ ?_ hm'lt ?_ ?_ ?_ ?_ rfl h4 ?_ ?_ <;> dsimp only
      · congr 1; omega
      · omega
      · omega
      · rw [hex]
      · rw [hex]; simp
      · rw [hex]; simpa using hfr
      · rw [h5, hex, show e + (k : Int) + (r : Int) + ((P : Int) - r) - 1 = (numeral 10 m).length + e - 1 by omega]; omega
      · rw [hex]; decide
    · rw [if_neg h2] at hf ⊢
      have hee : (P : Int) - r + (e + k + r) = (numeral 10 m).length + e := by omega
      refine good_fixed hg ⟨sg.char, sg.shown⟩ hfill hpad0 h1 rfl hm'lt ?_ ?_ ?_ ?_ ?_ rfl ?_ ?_ ?_ ?_ ?_ <;> dsimp only
      · omega
      · intro h; exact absurd h hm'0
      · rw [hex]
      · rw [hex, show (e + (k : Int) + (r : Int)).toNat = 0 by omega]; simp
      · rw [hex]; omega
      · rw [h5, h4, hee]
      · rw [hee, h6, hex, hxz]
        rcases max_cases (((numeral 10 m).length : Int) + e) with ⟨a, b⟩ | ⟨a, b⟩ <;> rw [b] <;> split_ifs <;> omega
      · omega
      · omega
      · rw [hex]; decide


set_option maxHeartbeats 4000000 in
theorem withPrecisionGeneral_all {m : Nat} {e : Int} (hs : StartOk sign neg fill pad0 m e d) (hd : GoodDec m e) :
    ∃ d' s t, withPrecisionGeneral (ctor2 (args gs rep)) p width al alt d = initFill d' width (max d'.sub d'.pad0) al ∧
    d'.sub ≤ 2147483647 ∧ (d'.form = .sci ∧ s = 0 ∨ s = d'.sep) ∧
    t = (if (significant (max p 1) m e).2 ≠ sciExp m e ∧ ¬ ((significant (max p 1) m e).2 < -4 ∨ ((max p 1 : Nat) : Int) ≤ (significant (max p 1) m e).2)
      then (leaderColumns sign neg : Int) else 0) ∧
    d'.sep - s = (if (significant (max p 1) m e).2 ≠ sciExp m e ∧ sciExp m e + 1 = ((max p 1 : Nat) : Int)
      then ((split gs rep (max p 1)).length : Int) - 1 else 0) ∧
    Good gs rep alt (genPrinted (max p 1) alt m e) sign neg fill pad0 { d' with sep := s, sub := d'.sub + t } := by
  have hc : countDigits 10 8 d.m = (numeral 10 m).length := by rw [hs.m]; exact count_eq m hd.lt64
  have hp1 := len_pos10 m
  have hl := hd.len
  have hlo := hd.lo
  have hhi := hd.hi
  have hPP : (if (p : Int) ≠ 0 then (p : Int) else 1) = ((max p 1 : Nat) : Int) := by split_ifs <;> omega
  have hx : sciExp m e = e + (numeral 10 m).length - 1 := rfl
  have hxc : ((numeral 10 m).length : Int) + e - 1 = sciExp m e := by omega
  unfold withPrecisionGeneral
  dsimp only
  rw [hPP, hc, hs.e, hs.m, hs.sub, hs.extra]
  have hrem := fun d : Data => fun h1 h2 h3 h4 h5 h6 h7 => generalRemove_all (gs := gs) (rep := rep) hg (sign := sign) (neg := neg) (fill := fill) (pad0 := pad0)
    (d := d) width al alt p hp (m := m) (e := e) h1 h2 h3 h4 h5 h6 h7 hd
  have hP1 : 1 ≤ max p 1 := by omega
  have hP2 : max p 1 ≤ 2 ^ 29 := by omega
  generalize hPd : max p 1 = P at hP1 hP2 hrem ⊢
  have hcond : (((numeral 10 m).length : Int) + e < -3 ∨ ((numeral 10 m).length : Int) + e > P) = (sciExp m e < -4 ∨ (P : Int) ≤ sciExp m e) := by
    apply propext; omega
  simp only [hcond]
  by_cases hsci : sciExp m e < -4 ∨ (P : Int) ≤ sciExp m e
  · rw [if_pos hsci]
    have hm0 : m ≠ 0 := by
      intro h
      have h1 := hd.zero h
      rw [h, h1] at hsci
      unfold sciExp at hsci
      rw [zero_len] at hsci
      omega
    by_cases hlen : P < (numeral 10 m).length
    · rw [if_pos (by omega)]
      refine hrem _ ?_ ?_ ?_ ?_ ?_ ?_ ?_ hlen _ ?_ 1 ?_
      · exact ⟨hs.sg.char, hs.sg.shown⟩
      · exact hs.fill
      · exact hs.pad0
      · rfl
      · rfl
      · rfl
      · rfl
      · rfl
      · exact .inl ⟨rfl, hsci, rfl, rfl, rfl⟩
    · rw [if_neg (by omega), genPrinted_exact P alt m e (by omega), significant_exact P m e (by omega)]
      dsimp only
      unfold genShape generalEnd
      dsimp only
      rw [if_pos hsci, if_pos hsci]
      cases alt
      · simp only [Bool.false_eq_true, if_false]
        have hst : strip (m * 10 ^ (P - (numeral 10 m).length)) (P - 1) = (m, (numeral 10 m).length - 1) := by
          have := strip_mul m ((numeral 10 m).length - 1) (P - (numeral 10 m).length)
          rw [strip_id m _ (.inl (hd.last hm0))] at this
          rw [← this]; congr 1; omega
        rw [hst]
        refine exact_near ⟨_, rfl, ?_⟩
        refine good_sci ⟨hs.sg.char, hs.sg.shown⟩ hs.fill hs.pad0 rfl ?_ ?_ ?_ ?_ ?_ ?_ ?_ ?_ rfl ?_ ?_ <;> dsimp only
        · rfl
        · omega
        · exact hd.lt
        · exact Int.le_refl _
        · simp
        · simp
        · rw [Bool.false_or, decide_eq_decide]; omega
        · rw [show e + ((numeral 10 m).length : Int) - 1 = (numeral 10 m).length + e - 1 by omega]; omega
        · decide
      · simp only [if_true]
        refine exact_near ⟨_, rfl, ?_⟩
        refine good_sci ⟨hs.sg.char, hs.sg.shown⟩ hs.fill hs.pad0 rfl ?_ ?_ ?_ ?_ ?_ ?_ ?_ rfl rfl ?_ ?_ <;> dsimp only
        · rfl
        · omega
        · exact hd.lt
        · omega
        · congr 2; omega
        · omega
        · rw [show e + ((numeral 10 m).length : Int) - 1 = (numeral 10 m).length + e - 1 by omega]; omega
        · omega
  · rw [if_neg hsci]
    by_cases he : e ≥ 0
    · rw [if_pos he, genPrinted_exact P alt m e (by omega), significant_exact P m e (by omega)]
      unfold genShape generalEnd
      dsimp only
      rw [if_neg hsci, if_neg hsci]
      have hmax : max 1 (((numeral 10 m).length : Int) + e) = (numeral 10 m).length + e := by omega
      cases alt
      · simp only [Bool.false_eq_true, if_false, false_and]
        have hst : strip (m * 10 ^ (P - (numeral 10 m).length)) ((P : Int) - 1 - sciExp m e).toNat = (m * 10 ^ e.toNat, 0) := by
          have := strip_mul (m * 10 ^ e.toNat) 0 ((P : Int) - 1 - sciExp m e).toNat
          rw [Nat.mul_assoc, ← Nat.pow_add, Nat.zero_add] at this
          rw [show P - (numeral 10 m).length = e.toNat + ((P : Int) - 1 - sciExp m e).toNat by omega, this]; rfl
        rw [hst]
        refine exact_near ⟨_, rfl, ?_⟩
        refine good_fixed hg ⟨hs.sg.char, hs.sg.shown⟩ hs.fill hs.pad0 rfl rfl ?_ ?_ ?_ ?_ ?_ ?_ rfl ?_ ?_ ?_ ?_ ?_ <;> dsimp only
        · exact hd.lt
        · exact hd.zero
        · exact Int.le_refl _
        · simp
        · omega
        · rw [hmax, if_neg (by omega)]; omega
        · omega
        · omega
        · decide
      · by_cases hpi : (P : Int) > (numeral 10 m).length + e
        · simp only [hpi, if_true, and_true, true_and]
          refine exact_near ⟨_, rfl, ?_⟩
          refine good_fixed hg ⟨hs.sg.char, hs.sg.shown⟩ hs.fill hs.pad0 rfl rfl ?_ ?_ ?_ ?_ ?_ ?_ rfl ?_ ?_ ?_ ?_ ?_ <;> dsimp only
          · exact hd.lt
          · exact hd.zero
          · omega
          · rw [Nat.mul_assoc, ← Nat.pow_add]; congr 2; omega
          · omega
          · rw [hmax, if_neg (by omega)]; omega
          · omega
          · omega
          · omega
        · simp only [hpi, if_true, and_false, if_false]
          refine exact_near ⟨_, rfl, ?_⟩
          refine good_fixed hg ⟨hs.sg.char, hs.sg.shown⟩ hs.fill hs.pad0 rfl rfl ?_ ?_ ?_ ?_ ?_ ?_ rfl ?_ ?_ ?_ ?_ ?_ <;> dsimp only
          · exact hd.lt
          · exact hd.zero
          · exact Int.le_refl _
          · simp only [Int.toNat_zero, Nat.pow_zero, Nat.mul_one]; congr 2; omega
          · omega
          · rw [hmax, if_neg (by omega)]; omega
          · omega
          · omega
          · decide
    · rw [if_neg he]
      have hm0 : m ≠ 0 := by intro h; have := hd.zero h; omega
      by_cases hlen : P < (numeral 10 m).length
      · rw [if_pos (by omega)]
        refine hrem _ ?_ ?_ ?_ ?_ ?_ ?_ ?_ hlen _ ?_ _ ?_
        · exact ⟨hs.sg.char, hs.sg.shown⟩
        · exact hs.fill
        · exact hs.pad0
        · rfl
        · rfl
        · rfl
        · rfl
        · rfl
        · exact .inr ⟨rfl, hsci, by omega, rfl, rfl, rfl⟩
      · rw [if_neg (by omega), genPrinted_exact P alt m e (by omega), significant_exact P m e (by omega)]
        unfold genShape generalEnd
        dsimp only
        rw [if_neg hsci, if_neg hsci]
        cases alt
        · simp only [Bool.false_eq_true, if_false]
          have hst : strip (m * 10 ^ (P - (numeral 10 m).length)) ((P : Int) - 1 - sciExp m e).toNat = (m, (-e).toNat) := by
            have := strip_mul m (-e).toNat (P - (numeral 10 m).length)
            rw [strip_id m _ (.inl (hd.last hm0))] at this
            rw [← this]; congr 1; omega
          rw [hst]
          refine exact_near ⟨_, rfl, ?_⟩
          refine good_fixed hg ⟨hs.sg.char, hs.sg.shown⟩ hs.fill hs.pad0 rfl rfl ?_ ?_ ?_ ?_ ?_ ?_ ?_ ?_ ?_ ?_ ?_ ?_ <;> dsimp only
          · exact hd.lt
          · intro h; exact absurd h hm0
          · exact Int.le_refl _
          · rw [show e.toNat = 0 by omega]; simp
          · omega
          · rw [Bool.false_or, decide_eq_true]; omega
          · rw [if_pos (show e < 0 by omega)]
            rcases max_cases (((numeral 10 m).length : Int) + e) with ⟨a, b⟩ | ⟨a, b⟩ <;> rw [b] <;> split_ifs <;> omega
          · omega
          · omega
          · decide
        · simp only [if_true]
          refine exact_near ⟨_, rfl, ?_⟩
          refine good_fixed hg ⟨hs.sg.char, hs.sg.shown⟩ hs.fill hs.pad0 rfl rfl ?_ ?_ ?_ ?_ ?_ ?_ rfl ?_ ?_ ?_ ?_ ?_ <;> dsimp only
          · exact hd.lt
          · intro h; exact absurd h hm0
          · omega
          · rw [show e.toNat = 0 by omega, Nat.pow_zero, Nat.mul_one]; congr 2; omega
          · omega
          · rw [if_pos (show e < 0 by omega)]
            rcases max_cases (((numeral 10 m).length : Int) + e) with ⟨a, b⟩ | ⟨a, b⟩ <;> rw [b] <;> split_ifs <;> omega
          · omega
          · omega
          · omega

end

end Strf.Float

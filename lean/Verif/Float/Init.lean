import Verif.Float.Fill
/-
Lemmas: the initialization of the data, without precision.
-/
namespace Strf.Float
open Strf.Float.Spec hiding Notation
open Strf.IntDigits Strf.IntDigits.Spec Strf.Numpunct Strf.Numpunct.Spec Strf.Print
open Strf.IntPrinter (b2n b2i AlignFmt signChar printFill)
open Strf.IntPrinter.Spec (Showsign Align Layout before times)

/-- the data before a notation is chosen -/
structure StartOk (sign : Showsign) (neg : Bool) (fill : Nat) (pad0 : Int) (m : Nat) (e : Int) (d : Data) : Prop where
  sg : SignOk sign neg d
  fill : d.fill = fill
  pad0 : d.pad0 = pad0
  sub : d.sub = leaderColumns sign neg
  extra : d.extra = 0
  m : d.m = m
  e : d.e = e

/-- the data before the fill part -/
structure Good (gs : List Nat) (rep alt : Bool) (sh : Shape) (sign : Showsign) (neg : Bool) (fill : Nat) (pad0 : Int) (d : Data) : Prop where
  ok : FixedOk gs rep alt sh d ∨ SciOk alt sh d
  sg : SignOk sign neg d
  fill : d.fill = fill
  pad0 : d.pad0 = pad0
  sub : d.sub = leaderColumns sign neg + columns gs rep alt sh
  bound : d.sub ≤ 2147483647

theorem leaderColumns_le (sign : Showsign) (neg : Bool) : leaderColumns sign neg ≤ 1 := by
  cases sign <;> cases neg <;> decide

theorem split_length_le (gs : List Nat) (rep : Bool) (hg : Valid gs rep) (n : Nat) (hn : 1 ≤ n) : (split gs rep n).length ≤ n := by
  obtain ⟨m1, m2, _⟩ := split_meaning gs rep hg n hn
  have := IntPrinter.length_le_sum _ m2
  omega

theorem sepCount_eq (gs : List Nat) (rep : Bool) (hg : Valid gs rep) (n : Int) :
    sepCount (ctor2 (args gs rep)) n = ((split gs rep (max 1 n).toNat).length - 1 : Nat) := by
  have h1 := any_separator_exact gs rep hg n.toNat
  have h2 := separators_count_exact gs rep hg n.toNat
  unfold sepCount
  rw [h1, h2]
  by_cases hn : n ≤ 0
  · have : n.toNat = 0 := by omega
    rw [this, split_zero, show (max 1 n).toNat = 1 by omega, split_one gs rep hg]
    simp
  · rw [show (max 1 n).toNat = n.toNat by omega]
    by_cases h : (split gs rep n.toNat).length - 1 = 0
    · rw [if_neg (by simp [h])]; omega
    · rw [if_pos (by simp [h])]

theorem sepCount_any (gs : List Nat) (rep : Bool) (hg : Valid gs rep) (n : Int) :
    anySeparator (ctor2 (args gs rep)) n.toNat = true ↔ sepCount (ctor2 (args gs rep)) n ≠ 0 := by
  have h1 := any_separator_exact gs rep hg n.toNat
  unfold sepCount
  rw [h1]
  simp

theorem sepCount_bound (gs : List Nat) (rep : Bool) (hg : Valid gs rep) (n : Int) :
    0 ≤ sepCount (ctor2 (args gs rep)) n ∧ sepCount (ctor2 (args gs rep)) n < max 1 n := by
  rw [sepCount_eq gs rep hg]
  have := split_length_le gs rep hg (max 1 n).toNat (by omega)
  omega

theorem b2i_eq (b : Bool) : b2i b = if b = true then 1 else 0 := by cases b <;> rfl

/-- how many digits there are before the point -/
theorem int_len (m : Nat) (e : Int) (x : Nat) (hz : m = 0 → e = 0) :
    (numeral 10 (m * 10 ^ e.toNat * 10 ^ x / 10 ^ ((-e).toNat + x))).length = (max 1 ((numeral 10 m).length + e)).toNat := by
  have := fixed_int_len m e hz
  rw [int_eq, ← fixed_int]
  omega

/-- to show that data describe a number in fixed notation -/
theorem fixedOk_of {gs : List Nat} {rep alt : Bool} {sh : Shape} {d : Data} (form : d.form = .fixed) (exp : sh.exp = none)
    (lt : d.m < 10 ^ 17) (digcount : d.digcount = (numeral 10 d.m).length) (zero : d.m = 0 → d.e = 0) (extra : 0 ≤ d.extra)
    (digits : sh.digits = d.m * 10 ^ d.e.toNat * 10 ^ d.extra.toNat) (frac : sh.frac = (-d.e).toNat + d.extra.toNat)
    (point : d.showpoint = (alt || decide (0 < sh.frac)))
    (sep : d.sep = ((split gs rep (max 1 (d.digcount + d.e)).toNat).length - 1 : Nat)) : FixedOk gs rep alt sh d :=
  ⟨form, exp, lt, digcount, zero, extra, digits, frac, point, by rw [digits, frac, int_len _ _ _ zero, sep, digcount]⟩

theorem FixedOk.columns {gs : List Nat} {rep alt : Bool} {sh : Shape} {d : Data} (h : FixedOk gs rep alt sh d) :
    (columns gs rep alt sh : Int) = max 1 (d.digcount + d.e) + d.sep + b2i d.showpoint + (if d.e < 0 then -d.e else 0) + d.extra := by
  have hp := len_pos10 d.m
  have hx := h.extra
  unfold Spec.columns number
  rw [h.exp]
  dsimp only
  rw [body_length, h.sep, h.digits, h.frac, int_len _ _ _ h.zero, h.point, h.frac, b2i_eq]
  simp only [List.length_singleton, Nat.mul_one, Bool.or_eq_true, decide_eq_true_eq]
  rw [h.digcount]
  push_cast
  split_ifs <;> (try simp only [List.length_singleton, List.length_nil]) <;> omega

theorem SciOk.columns {gs : List Nat} {rep alt : Bool} {sh : Shape} {d : Data} (h : SciOk alt sh d) :
    (columns gs rep alt sh : Int) = d.digcount + b2i d.showpoint + d.extra + 4 +
      c2i (d.e + d.digcount - 1 > 99 ∨ d.e + d.digcount - 1 < -99) := by
  have hp := len_pos10 d.m
  have hx := h.extra
  unfold Spec.columns number
  rw [h.exp]
  dsimp only
  rw [List.length_append, body_length, h.digits, h.frac, h.point, h.frac, b2i_eq]
  push_cast
  rw [expText_length _ _ h.small, split_nil_length, Nat.pow_add, Nat.mul_div_mul_right _ _ (Nat.pow_pos (by decide)),
    len_div _ _ (by omega)]
  simp only [List.length_singleton, Bool.or_eq_true, decide_eq_true_eq]
  rw [h.digcount]
  split_ifs <;> (try simp only [List.length_singleton, List.length_nil]) <;> omega

/-- the number of digits before the point -/
theorem max_cases (n : Int) : (1 ≤ n ∧ max 1 n = n) ∨ (n ≤ 0 ∧ max 1 n = 1) := by omega

theorem good_fixed {gs : List Nat} {rep alt : Bool} {sh : Shape} {sign : Showsign} {neg : Bool} {fill : Nat} {pad0 : Int} {d : Data}
    (hg : Valid gs rep) (sg : SignOk sign neg d) (hfill : d.fill = fill) (hpad0 : d.pad0 = pad0)
    (form : d.form = .fixed) (exp : sh.exp = none)
    (lt : d.m < 10 ^ 17) (digcount : d.digcount = (numeral 10 d.m).length) (zero : d.m = 0 → d.e = 0) (extra : 0 ≤ d.extra)
    (digits : sh.digits = d.m * 10 ^ d.e.toNat * 10 ^ d.extra.toNat) (frac : sh.frac = (-d.e).toNat + d.extra.toNat)
    (point : d.showpoint = (alt || decide (0 < sh.frac)))
    (sep : d.sep = sepCount (ctor2 (args gs rep)) (d.digcount + d.e))
    (sub : d.sub = leaderColumns sign neg + max 1 (d.digcount + d.e) + d.sep + b2i d.showpoint + (if d.e < 0 then -d.e else 0) + d.extra)
    (lo : -1000 ≤ d.e) (hi : d.e ≤ 1000) (ex : d.extra ≤ 2 ^ 30) : Good gs rep alt sh sign neg fill pad0 d := by
  have hok : FixedOk gs rep alt sh d := fixedOk_of form exp lt digcount zero extra digits frac point (by rw [sep, sepCount_eq gs rep hg])
  refine ⟨.inl hok, sg, hfill, hpad0, ?_, ?_⟩
  · rw [hok.columns, sub]; omega
  · have h1 := leaderColumns_le sign neg
    have h2 := sepCount_bound gs rep hg (d.digcount + d.e)
    have h3 := len_le _ 17 (by decide) lt
    rw [sub, sep, b2i_eq]
    rcases max_cases (d.digcount + d.e) with ⟨a, b⟩ | ⟨a, b⟩ <;> rw [b] at h2 ⊢ <;> split_ifs <;> omega

theorem good_sci {gs : List Nat} {rep alt : Bool} {sh : Shape} {sign : Showsign} {neg : Bool} {fill : Nat} {pad0 : Int} {d : Data}
    (sg : SignOk sign neg d) (hfill : d.fill = fill) (hpad0 : d.pad0 = pad0)
    (form : d.form = .sci) (exp : sh.exp = some (d.e + d.digcount - 1)) (small : (d.e + d.digcount - 1).natAbs < 1000)
    (lt : d.m < 10 ^ 17) (digcount : d.digcount = (numeral 10 d.m).length) (extra : 0 ≤ d.extra)
    (digits : sh.digits = d.m * 10 ^ d.extra.toNat) (frac : sh.frac = (numeral 10 d.m).length - 1 + d.extra.toNat)
    (point : d.showpoint = (alt || decide (0 < sh.frac))) (sep : d.sep = 0)
    (sub : d.sub = leaderColumns sign neg + d.digcount + b2i d.showpoint + d.extra + 4 +
      c2i (d.e + d.digcount - 1 > 99 ∨ d.e + d.digcount - 1 < -99))
    (ex : d.extra ≤ 2 ^ 30) : Good gs rep alt sh sign neg fill pad0 d := by
  have hok : SciOk alt sh d := ⟨form, exp, small, lt, digcount, extra, digits, frac, point, sep⟩
  refine ⟨.inr hok, sg, hfill, hpad0, ?_, ?_⟩
  · rw [hok.columns, sub]; omega
  · have h1 := leaderColumns_le sign neg
    have h3 := len_le _ 17 (by decide) lt
    rw [sub, b2i_eq]
    unfold c2i
    split_ifs <;> omega

section
variable {gs : List Nat} {rep : Bool} (hg : Valid gs rep) {sign : Showsign} {neg : Bool} {fill : Nat} {pad0 : Int} {m : Nat}
  {e : Int} {d : Data} (hs : StartOk sign neg fill pad0 m e d) (hd : GoodDec m e) (width : Int) (al : Align) (alt : Bool)

include hs hd

theorem sci_ok (p : Bool) (hp : p = (alt || decide ((numeral 10 m).length ≠ 1))) (sub : Int)
    (hsub : sub = leaderColumns sign neg + (numeral 10 m).length + (4 + b2i p) + c2i ((numeral 10 m).length + e - 1 > 99 ∨ (numeral 10 m).length + e - 1 < -99)) :
    Good gs rep alt (exactSci m e) sign neg fill pad0
      { d with sep := 0, form := .sci, digcount := ((numeral 10 m).length : Int), showpoint := p, sub := sub } := by
  have hp1 := len_pos10 m
  have hexp := hd.exp
  unfold sciExp at hexp
  refine good_sci ⟨hs.sg.char, hs.sg.shown⟩ hs.fill hs.pad0 rfl ?_ ?_ ?_ ?_ ?_ ?_ ?_ ?_ rfl ?_ ?_ <;> dsimp only
  · rw [hs.e]; rfl
  · rw [hs.e]; exact hexp
  · rw [hs.m]; exact hd.lt
  · rw [hs.m]
  · rw [hs.extra]
  · rw [hs.extra, hs.m]; simp [exactSci]
  · rw [hs.extra, hs.m]; simp [exactSci]
  · rw [hp]; unfold exactSci; dsimp only; congr 1; rw [decide_eq_decide]; omega
  · rw [hsub, hs.extra, hs.e, show e + ((numeral 10 m).length : Int) - 1 = (numeral 10 m).length + e - 1 by omega]; omega
  · rw [hs.extra]; decide

theorem withoutPrecisionSci_ok : ∃ d', withoutPrecisionSci width al alt d = initFill d' width (max d'.sub d'.pad0) al ∧
    Good gs rep alt (exactSci m e) sign neg fill pad0 d' := by
  have hc : countDigits 10 8 d.m = (numeral 10 m).length := by rw [hs.m]; exact count_eq m hd.lt64
  refine ⟨_, rfl, ?_⟩
  dsimp only
  rw [hc]
  refine sci_ok hs hd alt _ ?_ _ ?_
  · congr 1; rw [decide_eq_decide]; omega
  · rw [hs.sub, hs.e]; omega

include hg

theorem fixed_ok (sub : Int)
    (hsub : sub = leaderColumns sign neg + max 1 ((numeral 10 m).length + e) + sepCount (ctor2 (args gs rep)) ((numeral 10 m).length + e) +
      b2i (alt || decide (e < 0)) + (if e < 0 then -e else 0)) :
    Good gs rep alt (exactFixed m e) sign neg fill pad0
      { d with sep := sepCount (ctor2 (args gs rep)) ((numeral 10 m).length + e), form := .fixed, digcount := ((numeral 10 m).length : Int), showpoint := alt || decide (e < 0), sub := sub } := by
  have := hd.lo
  have := hd.hi
  refine good_fixed hg ⟨hs.sg.char, hs.sg.shown⟩ hs.fill hs.pad0 rfl rfl ?_ ?_ ?_ ?_ ?_ ?_ ?_ ?_ ?_ ?_ ?_ ?_ <;> dsimp only
  · rw [hs.m]; exact hd.lt
  · rw [hs.m]
  · rw [hs.m, hs.e]; exact hd.zero
  · rw [hs.extra]
  · rw [hs.extra, hs.m, hs.e]; simp [exactFixed]
  · rw [hs.extra, hs.e]; simp [exactFixed]
  · unfold exactFixed; dsimp only; congr 1; rw [decide_eq_decide]; omega
  · rw [hs.e]
  · rw [hsub, hs.extra, hs.e]; omega
  · rw [hs.e]; omega
  · rw [hs.e]; omega
  · rw [hs.extra]; decide

theorem withoutPrecisionFixed_ok : ∃ d', withoutPrecisionFixed (ctor2 (args gs rep)) width al alt d =
      initFill d' width (max d'.sub d'.pad0) al ∧
    Good gs rep alt (exactFixed m e) sign neg fill pad0 d' := by
  have hc : countDigits 10 8 d.m = (numeral 10 m).length := by rw [hs.m]; exact count_eq m hd.lt64
  have hp := len_pos10 m
  refine ⟨_, rfl, ?_⟩
  dsimp only
  rw [hc, hs.e]
  have := fixed_ok hg hs hd alt (d.sub + sepCount (ctor2 (args gs rep)) ((numeral 10 m).length + e) +
        (if e ≥ 0 then (numeral 10 m).length + e + b2i alt
                                    else if e ≤ -((numeral 10 m).length : Int) then 2 - e else 1 + (numeral 10 m).length)) (by
      rw [hs.sub, b2i_eq, b2i_eq]
      clear hc
      rcases max_cases ((numeral 10 m).length + e) with ⟨a, b⟩ | ⟨a, b⟩ <;> rw [b] <;> clear b <;> cases alt <;>
        simp only [Bool.true_or, Bool.false_or, Bool.false_eq_true, if_true, if_false, decide_eq_true_eq] <;> split_ifs <;> omega)
  rw [← hs.e] at this ⊢
  exact this

theorem withoutPrecisionGeneral_ok : ∃ d', withoutPrecisionGeneral (ctor2 (args gs rep)) width al alt d =
      initFill d' width (max d'.sub d'.pad0) al ∧
    Good gs rep alt (shape gs rep .general none alt m e) sign neg fill pad0 d' := by
  have hc : countDigits 10 8 d.m = (numeral 10 m).length := by rw [hs.m]; exact count_eq m hd.lt64
  have hp := len_pos10 m
  have hl := hd.len
  have hlo := hd.lo
  have hhi := hd.hi
  have hsb := sepCount_bound gs rep hg ((numeral 10 m).length + e)
  have hcols := exactSci_columns gs rep alt m e hd.exp
  have hcolf := exactFixed_columns gs rep alt m e hd.zero
  rw [← sepCount_eq gs rep hg] at hcolf
  refine ⟨_, rfl, ?_⟩
  dsimp only
  rw [hc, hs.e]
  simp only [sepCount_any gs rep hg]
  have hpt : decide (((numeral 10 m).length : Int) ≠ 1) = decide ((numeral 10 m).length ≠ 1) := by rw [decide_eq_decide]; omega
  have hS : Good gs rep alt (exactSci m e) sign neg fill pad0
      { d with sep := 0, form := .sci, digcount := ((numeral 10 m).length : Int), showpoint := alt || decide (((numeral 10 m).length : Int) ≠ 1),
               sub := d.sub + (numeral 10 m).length + (4 + b2i (alt || decide (((numeral 10 m).length : Int) ≠ 1))) + c2i ((numeral 10 m).length + e - 1 > 99 ∨ (numeral 10 m).length + e - 1 < -99) } := by
    refine sci_ok hs hd alt _ (by rw [hpt]) _ ?_
    rw [hs.sub]
  have hF := fixed_ok hg hs hd alt (d.sub + ((if e ≥ 0 then e + b2i alt else if (numeral 10 m).length + e ≤ 0 then 2 - ((numeral 10 m).length + e) else 1) +
        sepCount (ctor2 (args gs rep)) ((numeral 10 m).length + e)) + (numeral 10 m).length) (by
      rw [hs.sub, b2i_eq, b2i_eq]
      clear hc
      rcases max_cases ((numeral 10 m).length + e) with ⟨a, b⟩ | ⟨a, b⟩ <;> rw [b] <;> clear b <;> cases alt <;>
        simp only [Bool.true_or, Bool.false_or, Bool.false_eq_true, if_true, if_false, decide_eq_true_eq] <;> split_ifs <;> omega)
  rw [← hs.e] at hS hF
  have key : (columns gs rep alt (exactSci m e) < columns gs rep alt (exactFixed m e)) ↔
      (4 + b2i (alt || decide (((numeral 10 m).length : Int) ≠ 1)) < (if e ≥ 0 then e + b2i alt else if (numeral 10 m).length + e ≤ 0 then 2 - ((numeral 10 m).length + e) else 1) ∨
       (sepCount (ctor2 (args gs rep)) ((numeral 10 m).length + e) ≠ 0 ∧ (if e ≥ 0 then e + b2i alt else if (numeral 10 m).length + e ≤ 0 then 2 - ((numeral 10 m).length + e) else 1) + sepCount (ctor2 (args gs rep)) ((numeral 10 m).length + e) > 4 + b2i (alt || decide (((numeral 10 m).length : Int) ≠ 1)))) := by
    zify
    rw [hcols, hcolf, b2i_eq, b2i_eq]
    simp only [Bool.or_eq_true, decide_eq_true_eq, sciExp, c2i]
    have : (((numeral 10 m).length : Int) ≠ 1) = ((numeral 10 m).length ≠ 1) := by apply propext; omega
    simp only [this]
    clear hS hF hcols hcolf hc hpt
    generalize sepCount (ctor2 (args gs rep)) ((numeral 10 m).length + e) = c at hsb ⊢
    rcases max_cases ((numeral 10 m).length + e) with ⟨a, b⟩ | ⟨a, b⟩ <;> rw [b] at hsb ⊢ <;> clear b <;> cases alt <;>
      simp only [true_or, false_or, Bool.false_eq_true, if_true, if_false] <;> split_ifs <;> omega
  unfold shape
  dsimp only
  by_cases h1 : 4 + b2i (alt || decide (((numeral 10 m).length : Int) ≠ 1)) < (if e ≥ 0 then e + b2i alt else if (numeral 10 m).length + e ≤ 0 then 2 - ((numeral 10 m).length + e) else 1)
  · rw [if_pos h1, if_pos (key.mpr (.inl h1))]
    rw [← hs.e]; exact hS
  · rw [if_neg h1]
    by_cases h2 : sepCount (ctor2 (args gs rep)) ((numeral 10 m).length + e) ≠ 0 ∧ (if e ≥ 0 then e + b2i alt else if (numeral 10 m).length + e ≤ 0 then 2 - ((numeral 10 m).length + e) else 1) + sepCount (ctor2 (args gs rep)) ((numeral 10 m).length + e) > 4 + b2i (alt || decide (((numeral 10 m).length : Int) ≠ 1))
    · rw [if_pos h2, if_pos (key.mpr (.inr h2))]
      rw [← hs.e]; exact hS
    · rw [if_neg h2, if_neg (fun h => (key.mp h).elim h1 h2)]
      rw [← hs.e]; exact hF

end

end Strf.Float

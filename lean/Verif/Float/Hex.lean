import Verif.Float.Special
import Mathlib.NumberTheory.Padics.PadicVal.Basic
import Mathlib.Tactic.Positivity
/-
Lemmas: the hexadecimal notation.
-/
namespace Strf.Float
open Strf.Float.Spec hiding Notation
open Strf.IntDigits Strf.IntDigits.Spec Strf.Numpunct Strf.Numpunct.Spec Strf.Print
open Strf.IntPrinter (b2n b2i AlignFmt signChar printFill printFill_ok LayoutOf times_length times_succ)
open Strf.IntPrinter.Spec (Showsign Align Layout before times)
open Strf.Dest (Dest Lawful Prints)

variable {σ : Type} {D : Dest Nat σ} {Rep : σ → List Nat → Prop} {C : Charset σ}

/-! ### hexadecimal digits -/

theorem hexDigits_length (lc : Lettercase) (n : Nat) : ∀ v, (hexDigits lc n v).length = n := by
  induction n with
  | zero => intro v; rfl
  | succ n ih => intro v; rw [hexDigits, List.length_append, ih]; rfl

theorem hexDigits_add (lc : Lettercase) (a b : Nat) : ∀ v, hexDigits lc (a + b) v = hexDigits lc a (v / 16 ^ b) ++ hexDigits lc b v := by
  induction b with
  | zero => intro v; simp [hexDigits]
  | succ b ih =>
    intro v
    rw [← Nat.add_assoc, hexDigits, ih, hexDigits, Nat.pow_succ', Nat.div_div_eq_div_mul, List.append_assoc]

theorem hexDigits_high (lc : Lettercase) (n : Nat) : ∀ k w, hexDigits lc n (k * 16 ^ n + w) = hexDigits lc n w := by
  induction n with
  | zero => intro k w; rfl
  | succ n ih =>
    intro k w
    rw [hexDigits, hexDigits]
    have h1 : (k * 16 ^ (n + 1) + w) / 16 = k * 16 ^ n + w / 16 := by rw [Nat.pow_succ, ← Nat.mul_assoc]; omega
    have h2 : (k * 16 ^ (n + 1) + w) % 16 = w % 16 := by rw [Nat.pow_succ, ← Nat.mul_assoc]; omega
    rw [h1, h2, ih]

theorem hexDigits_zero (lc : Lettercase) (n : Nat) : hexDigits lc n 0 = List.replicate n 0x30 := by
  induction n with
  | zero => rfl
  | succ n ih => rw [hexDigits, Nat.zero_div, ih, List.replicate_succ']; rfl

theorem hexDigits_mul (lc : Lettercase) (a b v : Nat) : hexDigits lc (a + b) (v * 16 ^ b) = hexDigits lc a v ++ List.replicate b 0x30 := by
  rw [hexDigits_add, Nat.mul_div_cancel _ (Nat.pow_pos (by decide)), ← hexDigits_zero lc b]
  congr 1
  have := hexDigits_high lc b v 0
  rwa [Nat.add_zero] at this

theorem hexChar_eq (lc : Lettercase) (d : Nat) : hexChar lc d = digitChar lc d := by
  unfold hexChar digitChar offsetDigitA
  cases lc <;> split_ifs <;> simp_all <;> omega

theorem nibbles_eq (lc : Lettercase) (m : Nat) : (nibbles m).map (hexChar lc) = hexDigits lc 13 m := by
  unfold nibbles
  simp only [hexDigits, List.map, List.nil_append, List.cons_append, Nat.div_div_eq_div_mul, hexChar_eq]
  norm_num

theorem nibbles_take (lc : Lettercase) (m n : Nat) (h : n ≤ 13) :
    ((nibbles m).take n).map (hexChar lc) = hexDigits lc n (m / 16 ^ (13 - n)) := by
  rw [List.map_take, nibbles_eq]
  have := hexDigits_add lc n (13 - n) m
  rw [show n + (13 - n) = 13 by omega] at this
  rw [this]
  have hl := hexDigits_length lc n (m / 16 ^ (13 - n))
  rw [List.take_append_of_le_length (by omega), List.take_of_length_le (by omega)]

/-! ### the number of digits -/

theorem mantissa_digcount_spec (m : Nat) (h0 : m ≠ 0) (h : m < 2 ^ 52) :
    ∃ k u : Nat, mantissaHexDigcount m = 13 - k ∧ k ≤ 12 ∧ m = u * 16 ^ k ∧ u % 16 ≠ 0 := by
  unfold mantissaHexDigcount
  split_ifs
  · exact ⟨12, m / 2 ^ 48, by omega, by omega, by norm_num at *; omega, by norm_num at *; omega⟩
  · exact ⟨11, m / 2 ^ 44, by omega, by omega, by norm_num at *; omega, by norm_num at *; omega⟩
  · exact ⟨10, m / 2 ^ 40, by omega, by omega, by norm_num at *; omega, by norm_num at *; omega⟩
  · exact ⟨9, m / 2 ^ 36, by omega, by omega, by norm_num at *; omega, by norm_num at *; omega⟩
  · exact ⟨8, m / 2 ^ 32, by omega, by omega, by norm_num at *; omega, by norm_num at *; omega⟩
  · exact ⟨7, m / 2 ^ 28, by omega, by omega, by norm_num at *; omega, by norm_num at *; omega⟩
  · exact ⟨6, m / 2 ^ 24, by omega, by omega, by norm_num at *; omega, by norm_num at *; omega⟩
  · exact ⟨5, m / 2 ^ 20, by omega, by omega, by norm_num at *; omega, by norm_num at *; omega⟩
  · exact ⟨4, m / 2 ^ 16, by omega, by omega, by norm_num at *; omega, by norm_num at *; omega⟩
  · exact ⟨3, m / 2 ^ 12, by omega, by omega, by norm_num at *; omega, by norm_num at *; omega⟩
  · exact ⟨2, m / 2 ^ 8, by omega, by omega, by norm_num at *; omega, by norm_num at *; omega⟩
  · exact ⟨1, m / 2 ^ 4, by omega, by omega, by norm_num at *; omega, by norm_num at *; omega⟩
  · exact ⟨0, m, by omega, by omega, by norm_num at *, by norm_num at *; omega⟩

/-- the two implementations of mantissa_hex_digcount agree -/
theorem mantissa_digcount_ctz (m : Nat) (h0 : m ≠ 0) (h : m < 2 ^ 52) : mantissaHexDigcountCtz m = mantissaHexDigcount m := by
  obtain ⟨k, u, e, hk, hm, hu⟩ := mantissa_digcount_spec m h0 h
  rw [e]
  unfold mantissaHexDigcountCtz countrZero
  have hu0 : u ≠ 0 := by rintro rfl; simp at hu
  have : padicValNat 2 m = 4 * k + padicValNat 2 u := by
    rw [hm, padicValNat.mul hu0 (by positivity), show (16 : Nat) ^ k = 2 ^ (4 * k) by rw [Nat.pow_mul], padicValNat.prime_pow]
    omega
  rw [this]
  have h4 : padicValNat 2 u < 4 := by
    by_contra hc
    have := (padicValNat_dvd_iff_le (p := 2) (a := u) (n := 4) hu0).mpr (by omega)
    omega
  omega

theorem stripHex_id (w f : Nat) (h : w % 16 ≠ 0) : stripHex w f = (w, f) := by
  cases f with
  | zero => rfl
  | succ f => rw [stripHex, if_neg h]

theorem stripHex_mul (w f k : Nat) : stripHex (w * 16 ^ k) (f + k) = stripHex w f := by
  induction k with
  | zero => simp
  | succ k ih =>
    rw [← Nat.add_assoc, stripHex, if_pos (by rw [Nat.pow_succ, ← Nat.mul_assoc]; exact Nat.mul_mod_left _ _), Nat.pow_succ, ← Nat.mul_assoc,
      Nat.mul_div_cancel _ (by decide), ih]

theorem roundHex_exact (w k : Nat) : roundHex (w * 16 ^ k) k = w := by
  unfold roundHex
  have hp : 0 < 16 ^ k := Nat.pow_pos (by decide)
  dsimp only
  rw [Nat.mul_mod_left, Nat.mul_div_cancel _ hp, if_pos (.inl (by omega))]

theorem exponent_digcount (e : Int) (h : e.natAbs < 10000) : exponentHexDigcount e = (numeral 10 e.natAbs).length := by
  unfold exponentHexDigcount c2i
  dsimp only
  have h1 := len_pos10 e.natAbs
  have e1 : (if e < 0 then -e else e) = (e.natAbs : Int) := by split_ifs <;> omega
  rw [e1]
  generalize e.natAbs = n at *
  have hl : (numeral 10 n).length = if n ≥ 1000 then 4 else if n ≥ 100 then 3 else if n ≥ 10 then 2 else 1 := by
    split_ifs <;> (symm; apply len_lit <;> norm_num <;> omega)
  rw [hl]
  split_ifs <;> simp <;> omega

/-! ### the data -/

/-- the columns of the text after "0x" -/
def hexColumns (alt : Bool) (lead frac : Nat) (x : Int) (prec : Option Nat) : Nat := (hexText .lower [0x2E] alt lead frac x prec).length

/-- the data of a number in hexadecimal notation, before the fill part -/
structure HexOk (alt : Bool) (lead frac : Nat) (x : Int) (prec : Option Nat) (d : Data) : Prop where
  form : d.form = .hex
  sub : d.subnormal = decide (lead = 0)
  exp : d.e = x
  sep : d.sep = (numeral 10 x.natAbs).length
  none : d.m = 0 → d.digcount = 0
  lo : 0 ≤ d.digcount
  hi : d.digcount ≤ 13
  extra : 0 ≤ d.extra
  count : (hexShape lead frac prec).2 = d.digcount.toNat + d.extra.toNat
  point : d.showpoint = (alt || decide (0 < (hexShape lead frac prec).2))
  first : (hexShape lead frac prec).1 / 16 ^ (hexShape lead frac prec).2 = lead
  digits : ∀ lc, hexDigits lc (hexShape lead frac prec).2 (hexShape lead frac prec).1 =
    hexDigits lc d.digcount.toNat (d.m / 16 ^ (13 - d.digcount.toNat)) ++ List.replicate d.extra.toNat 0x30

theorem hexText_length (lc : Lettercase) (point : List Nat) (alt : Bool) (lead frac : Nat) (x : Int) (prec : Option Nat) :
    (hexText lc point alt lead frac x prec).length = 3 + (if alt ∨ 0 < (hexShape lead frac prec).2 then point.length else 0) +
      (hexShape lead frac prec).2 + (numeral 10 x.natAbs).length := by
  unfold hexText
  generalize hexShape lead frac prec = q
  obtain ⟨v, f⟩ := q
  simp only [List.length_cons, List.length_append, hexDigits_length, text_length]
  split_ifs <;> (try simp only [List.length_nil]) <;> omega

theorem HexOk.columns {alt : Bool} {lead frac : Nat} {x : Int} {prec : Option Nat} {d : Data} (h : HexOk alt lead frac x prec d) :
    (hexColumns alt lead frac x prec : Int) = 3 + b2i d.showpoint + d.digcount + d.extra + d.sep := by
  have h1 := h.lo
  have h2 := h.extra
  unfold hexColumns
  rw [hexText_length, h.count, h.sep, h.point, h.count]
  by_cases hp : alt = true ∨ 0 < d.digcount.toNat + d.extra.toNat
  · rw [if_pos hp]
    have : (alt || decide (0 < d.digcount.toNat + d.extra.toNat)) = true := by simpa using hp
    rw [this]
    simp only [b2i, List.length_cons, List.length_nil, if_true]
    push_cast; omega
  · rw [if_neg hp]
    have : (alt || decide (0 < d.digcount.toNat + d.extra.toNat)) = false := by simpa using hp
    rw [this]
    simp only [b2i, Bool.false_eq_true, if_false]
    push_cast; omega

/-- The case in which rounding to the precision does not carry into the digit before the point. -/
def HexCarryOk (lead frac : Nat) (prec : Option Nat) : Prop :=
  (hexShape lead frac prec).1 / 16 ^ (hexShape lead frac prec).2 = lead

theorem HexOk.same {alt : Bool} {lead frac : Nat} {x : Int} {prec : Option Nat} {d d' : Data} (h : HexOk alt lead frac x prec d) (s : Same d d') :
    HexOk alt lead frac x prec d' :=
  ⟨by rw [s.form, h.form], by rw [s.subnormal, h.sub], by rw [s.e, h.exp], by rw [s.sep, h.sep], by rw [s.m, s.digcount]; exact h.none,
    by rw [s.digcount]; exact h.lo, by rw [s.digcount]; exact h.hi, by rw [s.extra]; exact h.extra, by rw [s.digcount, s.extra]; exact h.count,
    by rw [s.showpoint]; exact h.point, h.first, by rw [s.digcount, s.extra, s.m]; exact h.digits⟩

theorem roundMantissa_eq (lead m p : Nat) (hp : p < 13) (hp1 : 1 ≤ p) :
    roundHex (lead * 16 ^ 13 + m) (13 - p) = lead * 16 ^ p + roundMantissa p m / 16 ^ (13 - p) := by
  unfold roundHex roundMantissa
  have e1 : (16 : Nat) ^ 13 = 16 ^ p * 16 ^ (13 - p) := by rw [← Nat.pow_add]; congr 1; omega
  have e2 : (2 : Nat) ^ ((13 - p) * 4) = 16 ^ (13 - p) := by rw [Nat.mul_comm, Nat.pow_mul]
  obtain ⟨j, hj⟩ : ∃ j, 13 - p = j + 1 := ⟨12 - p, by omega⟩
  have hp0 : 0 < 16 ^ (13 - p) := Nat.pow_pos (by decide)
  have he : 16 ^ (13 - p) = 2 * (8 * 16 ^ j) := by rw [hj, Nat.pow_succ]; omega
  have hev : lead * 16 ^ p % 2 = 0 := by
    obtain ⟨i, hi⟩ : ∃ i, p = i + 1 := ⟨p - 1, by omega⟩
    rw [hi, Nat.pow_succ, ← Nat.mul_assoc]; omega
  dsimp only
  rw [e1, e2, ← Nat.mul_assoc]
  have d1 : (lead * 16 ^ p * 16 ^ (13 - p) + m) / 16 ^ (13 - p) = lead * 16 ^ p + m / 16 ^ (13 - p) := by
    rw [Nat.add_comm, Nat.add_mul_div_right _ _ hp0, Nat.add_comm]
  have d2 : (lead * 16 ^ p * 16 ^ (13 - p) + m) % 16 ^ (13 - p) = m % 16 ^ (13 - p) := by
    rw [Nat.add_comm, Nat.add_mul_mod_self_right]
  rw [d1, d2]
  have d3 : (m + 16 ^ (13 - p)) / 16 ^ (13 - p) = m / 16 ^ (13 - p) + 1 := Nat.add_div_right _ hp0
  generalize 16 ^ (13 - p) = P at *
  generalize hq : m / P = q at *
  generalize m % P = r at *
  generalize lead * 16 ^ p = t at *
  have hhalf : P / 2 = 8 * 16 ^ j := by omega
  rw [hhalf]
  generalize 8 * 16 ^ j = H at *
  split_ifs with a b b
  · omega
  · omega
  · rw [d3]; omega
  · omega

theorem zero_hexShape (lead : Nat) (prec : Option Nat) : hexShape lead 0 prec = (lead * 16 ^ (prec.getD 0), prec.getD 0) := by
  unfold hexShape
  dsimp only
  rw [Nat.add_zero]
  cases prec with
  | none =>
    have := stripHex_mul lead 0 13
    rw [Nat.zero_add, stripHex] at this
    rw [this]
    simp
  | some p =>
    dsimp only [Option.getD]
    split_ifs with hp
    · have := roundHex_exact (lead * 16 ^ p) (13 - p)
      rw [Nat.mul_assoc, ← Nat.pow_add, show p + (13 - p) = 13 by omega] at this
      rw [this]
    · rw [Nat.mul_assoc, ← Nat.pow_add, show 13 + (p - 13) = p by omega]

theorem frac_hexShape (lead u k : Nat) (hk : k ≤ 12) (hu : u % 16 ≠ 0) (prec : Option Nat) (hp : ∀ p, prec = some p → 13 - k ≤ p) :
    hexShape lead (u * 16 ^ k) prec =
      ((lead * 16 ^ (13 - k) + u) * 16 ^ (prec.getD (13 - k) - (13 - k)), prec.getD (13 - k)) := by
  have hv : lead * 16 ^ 13 + u * 16 ^ k = (lead * 16 ^ (13 - k) + u) * 16 ^ k := by
    rw [Nat.add_mul, Nat.mul_assoc, ← Nat.pow_add, show 13 - k + k = 13 by omega]
  unfold hexShape
  dsimp only
  rw [hv]
  cases prec with
  | none =>
    have := stripHex_mul (lead * 16 ^ (13 - k) + u) (13 - k) k
    have hne : (lead * 16 ^ (13 - k) + u) % 16 ≠ 0 := by
      obtain ⟨i, hi⟩ : ∃ i, 13 - k = i + 1 := ⟨12 - k, by omega⟩
      rw [hi, Nat.pow_succ, ← Nat.mul_assoc]; omega
    rw [show 13 - k + k = 13 by omega, stripHex_id _ _ hne] at this
    rw [this]; simp
  | some p =>
    have hp := hp p rfl
    dsimp only [Option.getD]
    split_ifs with h13
    · have := roundHex_exact ((lead * 16 ^ (13 - k) + u) * 16 ^ (p - (13 - k))) (13 - p)
      rw [Nat.mul_assoc, ← Nat.pow_add, show p - (13 - k) + (13 - p) = k by omega] at this
      rw [this]
    · rw [Nat.mul_assoc, ← Nat.pow_add]; congr 2; congr 1; omega

/-- what the initialization computes -/
structure HexGood (alt : Bool) (lead frac : Nat) (x : Int) (prec : Option Nat) (sign : Showsign) (neg : Bool) (fill : Nat) (pad0 : Int)
    (d : Data) : Prop where
  ok : HexOk alt lead frac x prec d
  sg : SignOk sign neg d
  fill : d.fill = fill
  pad0 : d.pad0 = pad0
  sub : d.sub + d.extra = leaderColumns sign neg + 2 + hexColumns alt lead frac x prec
  short : d.sub ≤ 40
  bound : d.sub + d.extra ≤ 2147483647

theorem HexGood.mk' {alt : Bool} {lead frac : Nat} {x : Int} {prec : Option Nat} {sign : Showsign} {neg : Bool} {fill : Nat} {pad0 : Int} {d : Data}
    (ok : HexOk alt lead frac x prec d) (sg : SignOk sign neg d) (hfill : d.fill = fill) (hpad0 : d.pad0 = pad0) (hx : x.natAbs < 10000)
    (hsub : d.sub = leaderColumns sign neg + 5 + d.sep + b2i d.showpoint + d.digcount) (hextra : d.extra ≤ 2 ^ 29) :
    HexGood alt lead frac x prec sign neg fill pad0 d := by
  have h1 := ok.columns
  have h2 := leaderColumns_le sign neg
  have h3 := ok.hi
  have h4 : (numeral 10 x.natAbs).length ≤ 4 := len_le _ 4 (by decide) hx
  have h5 := ok.sep
  have h6 : b2i d.showpoint ≤ 1 := by cases d.showpoint <;> decide
  exact ⟨ok, sg, hfill, hpad0, by omega, by omega, by omega⟩

set_option maxHeartbeats 1000000 in
theorem initHex_ok {lead frac : Nat} {x : Int} {sign : Showsign} {neg : Bool} {fill : Nat} {pad0 : Int} {d : Data}
    (hs : StartOk sign neg fill pad0 frac x d) (hsubn : d.subnormal = decide (lead = 0)) (hlead : lead ≤ 1) (hfrac : frac < 2 ^ 52)
    (hx : x.natAbs < 10000) (f : FloatFmt) (hf : FmtOk f) (hc : HexCarryOk lead frac (precision f.precision)) (width : Int) (al : Align) :
    ∃ d', initHex f width al d = initFill d' width (max (d'.sub + d'.extra) d'.pad0) al ∧
      HexGood f.showpoint lead frac (if lead = 0 ∧ frac = 0 then 0 else x) (precision f.precision) sign neg fill pad0 d' := by
  have hp := hf.precision
  have hextra : (if f.precision ≥ 0 then f.precision else 0) = (((precision f.precision).getD 0 : Nat) : Int) := by
    unfold precision; split_ifs <;> simp <;> omega
  unfold initHex
  dsimp only
  rw [hextra, hs.m, hs.sub, hs.e, hsubn]
  by_cases h0 : frac = 0
  · subst h0
    have hsh := zero_hexShape lead (precision f.precision)
    have hdig : ∀ lc, hexDigits lc ((precision f.precision).getD 0) (lead * 16 ^ (precision f.precision).getD 0) =
        List.replicate ((precision f.precision).getD 0) 0x30 := by
      intro lc
      have := hexDigits_mul lc 0 ((precision f.precision).getD 0) lead
      rw [Nat.zero_add] at this
      rw [this]; rfl
    have hle : (precision f.precision).getD 0 ≤ 2 ^ 29 := by unfold precision; split_ifs <;> simp <;> omega
    have hdiv : lead * 16 ^ (precision f.precision).getD 0 / 16 ^ (precision f.precision).getD 0 = lead :=
      Nat.mul_div_cancel _ (Nat.pow_pos (by decide))
    have hpoint : (decide ((((precision f.precision).getD 0 : Nat) : Int) ≠ 0) || f.showpoint) = (f.showpoint || decide (0 < (precision f.precision).getD 0)) := by
      rw [Bool.or_comm]; congr 1; rw [decide_eq_decide]; omega
    rw [hpoint]
    generalize (precision f.precision).getD 0 = q at *
    by_cases hl : lead = 0
    · subst hl
      simp only [and_true, decide_true, if_true]
      refine ⟨_, rfl, ?_⟩
      refine HexGood.mk' ⟨rfl, ?_, rfl, ?_, fun _ => rfl, ?_, ?_, ?_, ?_, ?_, ?_, ?_⟩ ⟨hs.sg.char, hs.sg.shown⟩ hs.fill hs.pad0 (by decide) ?_ ?_
      all_goals (try dsimp only)
      all_goals (try rw [hsh])
      all_goals (try dsimp only)
      all_goals first | omega | decide | exact exponent_digcount x hx | exact hdiv | (intro lc; rw [hdig]; rfl)
    · have hneg : ¬ (decide (lead = 0) = true ∧ True) := by simp [hl]
      have hneg2 : ¬ (lead = 0 ∧ True) := by simp [hl]
      simp only [if_true, if_neg hneg, if_neg hneg2]
      refine ⟨_, rfl, ?_⟩
      refine HexGood.mk' ⟨rfl, ?_, ?_, ?_, fun _ => rfl, ?_, ?_, ?_, ?_, ?_, ?_, ?_⟩ ⟨hs.sg.char, hs.sg.shown⟩ hs.fill hs.pad0 hx ?_ ?_
      all_goals (try dsimp only)
      all_goals (try rw [hsh])
      all_goals (try dsimp only)
      all_goals first | omega | decide | exact exponent_digcount x hx | exact hdiv | (intro lc; rw [hdig]; rfl)
  · have hneg : ¬ (decide (lead = 0) = true ∧ frac = 0) := by simp [h0]
    have hneg2 : ¬ (lead = 0 ∧ frac = 0) := by simp [h0]
    rw [if_neg hneg, if_neg hneg2, if_neg h0]
    obtain ⟨k, u, hdc, hk, hm, hu⟩ := mantissa_digcount_spec frac h0 hfrac
    rw [hdc]
    have hdc1 : ((13 : Int) - k).toNat = 13 - k := by omega
    -- the digits of the mantissa
    have hdig : ∀ lc q, hexDigits lc (13 - k + q) ((lead * 16 ^ (13 - k) + u) * 16 ^ q) =
        hexDigits lc (13 - k) (frac / 16 ^ (13 - (13 - k))) ++ List.replicate q 0x30 := by
      intro lc q
      rw [hexDigits_mul, hexDigits_high, show 13 - (13 - k) = k by omega, hm, Nat.mul_div_cancel _ (Nat.pow_pos (by decide))]
    have hul : u < 16 ^ (13 - k) := by
      have h1 : u * 16 ^ k < 16 ^ (13 - k) * 16 ^ k := by
        rw [← Nat.pow_add, show 13 - k + k = 13 by omega, ← hm]; exact lt_of_lt_of_le hfrac (by decide)
      exact Nat.lt_of_mul_lt_mul_right h1
    have hdiv : ∀ q, (lead * 16 ^ (13 - k) + u) * 16 ^ q / 16 ^ (13 - k + q) = lead := by
      intro q
      rw [Nat.pow_add, Nat.mul_div_mul_right _ _ (Nat.pow_pos (by decide)), Nat.add_comm, Nat.add_mul_div_right _ _ (Nat.pow_pos (by decide)),
        Nat.div_eq_of_lt hul, Nat.zero_add]
    by_cases hn : f.precision < 0
    · rw [if_pos hn]
      have hpr : precision f.precision = none := by unfold precision; rw [if_pos (by omega)]
      have hsh := frac_hexShape lead u k hk hu none (fun p h => by cases h)
      rw [← hm] at hsh
      simp only [Option.getD_none, Nat.sub_self] at hsh
      rw [hpr]
      refine ⟨_, rfl, ?_⟩
      refine HexGood.mk' ⟨rfl, ?_, ?_, ?_, ?_, ?_, ?_, ?_, ?_, ?_, ?_, ?_⟩ ⟨hs.sg.char, hs.sg.shown⟩ hs.fill hs.pad0 hx ?_ ?_
      all_goals (try dsimp only)
      all_goals (try rw [hsh])
      all_goals (try dsimp only)
      all_goals first | omega | decide | exact exponent_digcount x hx | (intro h; exact absurd h h0) | (rw [decide_eq_true (by omega), Bool.or_true]) | (have := hdiv 0; rwa [Nat.add_zero] at this) | (intro lc; rw [hdc1]; have := hdig lc 0; rwa [Nat.add_zero] at this) | (show _ = _ + _ + _ + 1 + _; omega)
    · rw [if_neg hn]
      obtain ⟨p, hpp⟩ : ∃ p : Nat, f.precision = p := ⟨f.precision.toNat, by omega⟩
      have hpr : precision f.precision = some p := by unfold precision; rw [if_neg (by omega), hpp]; rfl
      rw [hpr] at hc ⊢
      by_cases hge : f.precision ≥ 13 - (k : Int)
      · rw [if_pos hge]
        have hsh := frac_hexShape lead u k hk hu (some p) (fun p' h => by cases h; omega)
        rw [← hm] at hsh
        simp only [Option.getD_some] at hsh
        have hq : p = 13 - k + (p - (13 - k)) := by omega
        refine ⟨_, rfl, ?_⟩
        refine HexGood.mk' ⟨rfl, ?_, ?_, ?_, ?_, ?_, ?_, ?_, ?_, ?_, ?_, ?_⟩ ⟨hs.sg.char, hs.sg.shown⟩ hs.fill hs.pad0 hx ?_ ?_
        all_goals (try dsimp only)
        all_goals (try rw [hsh])
        all_goals (try dsimp only)
        all_goals first | omega | decide | exact exponent_digcount x hx | (intro h; exact absurd h h0) | (rw [decide_eq_true (by omega), Bool.or_true]) | (have := hdiv (p - (13 - k)); rwa [← hq] at this) | (intro lc; rw [hdc1, show (f.precision - (13 - (k : Int))).toNat = p - (13 - k) by omega]; have := hdig lc (p - (13 - k)); rwa [← hq] at this) | (show _ = _ + _ + _ + 1 + _; omega)
      · rw [if_neg hge]
        have hp13 : p < 13 := by omega
        have hsh : hexShape lead frac (some p) = (roundHex (lead * 16 ^ 13 + frac) (13 - p), p) := by
          unfold hexShape; dsimp only; rw [if_pos hp13]
        unfold HexCarryOk at hc
        rw [hsh] at hc
        dsimp only at hc
        refine ⟨_, rfl, ?_⟩
        refine HexGood.mk' ⟨rfl, ?_, ?_, ?_, ?_, ?_, ?_, ?_, ?_, ?_, ?_, ?_⟩ ⟨hs.sg.char, hs.sg.shown⟩ hs.fill hs.pad0 hx ?_ ?_
        all_goals (try dsimp only)
        all_goals (try rw [hsh])
        all_goals (try dsimp only)
        · exact exponent_digcount x hx
        · intro h
          exfalso
          unfold roundMantissa at h
          dsimp only at h
          have : 0 < 2 ^ ((13 - f.precision.toNat) * 4) := Nat.pow_pos (by decide)
          split_ifs at h <;> omega
        · omega
        · omega
        · decide
        · omega
        · rw [Bool.or_comm]; congr 1; rw [decide_eq_decide]; omega
        · exact hc
        · intro lc
          rw [show f.precision.toNat = p by omega]
          by_cases hp0 : p = 0
          · rw [hp0]; rfl
          · rw [roundMantissa_eq lead frac p hp13 (by omega), hexDigits_high]; simp
        · omega
        · decide

end Strf.Float

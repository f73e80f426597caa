import Verif.IntPrinter.Model
import Verif.IntDigits.Props
import Verif.Numpunct.Props
import Verif.Width.Props
/-
Lemmas about the model of the integer printers.
-/
namespace Strf.IntPrinter
open Spec Strf.IntDigits Strf.IntDigits.Spec Strf.Numpunct Strf.Numpunct.Spec Strf.Print
open Strf.Dest (Dest Lawful Prints)

variable {σ : Type} {D : Dest Nat σ} {Rep : σ → List Nat → Prop} {C : Charset σ}

theorem negSucc_ok (bytes : Nat) (hb : Bytes bytes) (v : Int) (h : -2 ^ (8 * bytes - 1) ≤ v) (hn : v < 0) :
    negSucc bytes v = some v.natAbs := by
  unfold negSucc
  dsimp only
  rcases hb with rfl | rfl | rfl | rfl <;> norm_num at h <;> rw [if_pos (by norm_num; omega)] <;> congr 1 <;> omega

theorem magnitude_lt (base : Nat) (x : IntVal) (hx : x.Ok) : magnitude base x < 2 ^ (8 * x.bytes) := by
  obtain ⟨hb, hv⟩ := hx
  unfold magnitude
  split_ifs
  · rcases hb with h | h | h | h <;> rw [h] at hv ⊢ <;> norm_num at hv ⊢ <;> split_ifs at hv <;> omega
  · rcases hb with h | h | h | h <;> rw [h] <;> norm_num <;> omega

theorem magnitude_lt64 (base : Nat) (x : IntVal) (hx : x.Ok) : magnitude base x < 2 ^ 64 :=
  Bytes.le64 hx.1 (magnitude_lt base x hx)

theorem magnitude_zero (base : Nat) (hb : base ≠ 10) (x : IntVal) (hx : x.Ok) : magnitude base x = 0 ↔ x.value = 0 := by
  obtain ⟨hn, hv⟩ := hx
  unfold magnitude
  rw [if_neg hb]
  rcases hn with h | h | h | h <;> rw [h] at hv ⊢ <;> norm_num at hv ⊢ <;> split_ifs at hv <;> omega

/-- the number is to be preceded by the fill character -/
def fillSign (fmt : Fmt) (x : IntVal) : Prop :=
  fmt.base = 10 ∧ x.signed = true ∧ 0 ≤ x.value ∧ fmt.sign = .fillInstead

instance (fmt : Fmt) (x : IntVal) : Decidable (fillSign fmt x) := by unfold fillSign; infer_instance

/-- the state after init_1 and the prefix part -/
structure Ready (fmt : Fmt) (x : IntVal) (d : Data) : Prop where
  uvalue : d.uvalue = magnitude fmt.base x
  digcount : d.digcount = (digits .lower fmt x).length
  hasPrefix : d.hasPrefix = decide (leaderColumns fmt x ≠ 0)
  sign : fmt.base = 10 → d.hasPrefix = true → leader (fun c => [c]) .lower fmt 0x20 x = [d.sign]
  space : fmt.base = 10 → (d.sign = 0x20 ↔ fillSign fmt x)

theorem init1_ok (base : Nat) (hb : Base base) (sign : Showsign) (x : IntVal) (hx : x.Ok) (d : Data) :
    ∃ d', init1 base sign x d = some d' ∧ d'.uvalue = magnitude base x ∧
      (base = 10 → d'.sign = (if x.value < 0 then 0x2D else if x.signed then signChar sign else 0) ∧
        d'.hasPrefix = decide (d'.sign ≠ 0)) := by
  unfold init1
  by_cases h10 : base = 10
  · rw [if_pos h10]
    subst h10
    have hm : magnitude 10 x = x.value.natAbs := rfl
    by_cases hs : x.signed = true
    · rw [if_pos hs]
      by_cases hv : x.value ≥ 0
      · rw [if_pos hv]
        refine ⟨_, rfl, by dsimp only; rw [hm]; omega, fun _ => ?_⟩
        dsimp only
        rw [if_neg (by omega), if_pos hs]
        refine ⟨rfl, ?_⟩
        cases sign <;> simp [signChar]
      · rw [if_neg hv]
        by_cases h8 : x.bytes < 8
        · rw [if_pos h8]
          refine ⟨_, rfl, by dsimp only; rw [hm]; omega, fun _ => ⟨?_, rfl⟩⟩
          rw [if_pos (by omega)]
        · rw [if_neg h8]
          have h2 := hx.2
          rw [if_pos hs] at h2
          rw [negSucc_ok x.bytes hx.1 x.value h2.1 (by omega)]
          refine ⟨_, rfl, hm.symm, fun _ => ⟨?_, rfl⟩⟩
          rw [if_pos (by omega)]
    · rw [if_neg hs]
      have h2 := hx.2
      rw [if_neg hs] at h2
      refine ⟨_, rfl, by dsimp only; rw [hm]; omega, fun _ => ⟨?_, rfl⟩⟩
      rw [if_neg (by omega), if_neg hs]
  · rw [if_neg h10]
    refine ⟨_, rfl, ?_, fun h => absurd h h10⟩
    dsimp only
    unfold castUnsigned magnitude
    rw [if_neg h10]

theorem leader_fill (enc : Nat → List Nat) (lc : Lettercase) (fmt : Fmt) (fill : Nat) (x : IntVal)
    (h : fillSign fmt x) : leader enc lc fmt fill x = enc fill := by
  obtain ⟨h1, h2, h3, h4⟩ := h
  unfold leader
  rw [if_pos h1, if_neg (by omega), if_pos h2, h4]

theorem leader_plain (enc enc' : Nat → List Nat) (lc : Lettercase) (fmt : Fmt) (fill fill' : Nat) (x : IntVal)
    (h : ¬ fillSign fmt x) : leader enc lc fmt fill x = leader enc' lc fmt fill' x := by
  unfold fillSign at h
  unfold leader
  split_ifs with h1 h2 h3 <;> try rfl
  cases hs : fmt.sign <;> try rfl
  exact absurd ⟨h1, h3, by omega, hs⟩ h

theorem leader_lc_length (enc : Nat → List Nat) (lc lc' : Lettercase) (fmt : Fmt) (fill : Nat) (x : IntVal) :
    (leader enc lc fmt fill x).length = (leader enc lc' fmt fill x).length := by
  unfold leader
  split_ifs <;> rfl

theorem leaderColumns_fill (fmt : Fmt) (x : IntVal) (h : fillSign fmt x) : leaderColumns fmt x = 1 := by
  unfold leaderColumns; rw [leader_fill _ _ _ _ _ h]; rfl

theorem leader_length (enc : Nat → List Nat) (lc : Lettercase) (fmt : Fmt) (fill : Nat) (x : IntVal)
    (h : ¬ fillSign fmt x) : (leader enc lc fmt fill x).length = leaderColumns fmt x := by
  unfold leaderColumns
  rw [leader_plain enc (fun c => [c]) lc fmt fill 0x20 x h, leader_lc_length _ lc .lower]

theorem leaderColumns_le (fmt : Fmt) (x : IntVal) : leaderColumns fmt x ≤ 2 := by
  unfold leaderColumns leader
  split_ifs <;> try simp
  cases fmt.sign <;> simp

theorem ready_of_init1 (fmt : Fmt) (hb : Base fmt.base) (x : IntVal) (hx : x.Ok) (d : Data)
    (hd : d.uvalue = magnitude fmt.base x)
    (hs : fmt.base = 10 → d.sign = (if x.value < 0 then 0x2D else if x.signed then signChar fmt.sign else 0) ∧
        d.hasPrefix = decide (d.sign ≠ 0)) :
    ∃ d', prefixPart fmt.base fmt.showbase fmt.precision { d with digcount := countDigits fmt.base 8 d.uvalue } =
        (d', (leaderColumns fmt x : Int), if fmt.base = 8 ∧ leaderColumns fmt x = 1 ∧ 0 < fmt.precision then fmt.precision - 1 else fmt.precision) ∧
      Ready fmt x d' := by
  have hc : countDigits fmt.base 8 d.uvalue = (digits .lower fmt x).length := by
    rw [hd, count_digits_exact fmt.base 8 _ hb (by simp [Bytes]) (magnitude_lt64 _ x hx)]
    unfold digits; rw [text_length]
  rw [hc]
  unfold prefixPart
  by_cases h10 : fmt.base = 10
  · rw [if_pos h10]
    obtain ⟨s1, s2⟩ := hs h10
    have hl : leader (fun c => [c]) .lower fmt 0x20 x = if d.sign = 0 then [] else [d.sign] := by
      unfold leader
      rw [if_pos h10, s1]
      by_cases g1 : x.value < 0
      · simp only [if_pos g1]; rfl
      · simp only [if_neg g1]
        by_cases g2 : x.signed = true
        · simp only [if_pos g2]
          cases fmt.sign <;> rfl
        · simp only [if_neg g2]; rfl
    have hn : leaderColumns fmt x = if d.sign = 0 then 0 else 1 := by
      unfold leaderColumns; rw [hl]; split_ifs <;> rfl
    have hp : d.hasPrefix = decide (leaderColumns fmt x ≠ 0) := by
      rw [s2, hn]
      by_cases h0 : d.sign = 0 <;> simp [h0]
    refine ⟨{ d with digcount := (digits .lower fmt x).length }, ?_, ⟨hd, rfl, hp, ?_, ?_⟩⟩
    · rw [if_neg (by omega)]
      dsimp only
      rw [s2, hn]
      by_cases h0 : d.sign = 0 <;> simp [h0, b2i]
    · intro _ hh
      dsimp only at hh
      rw [s2] at hh
      rw [hl, if_neg (by simpa using hh)]
    · intro _
      dsimp only
      rw [s1]
      unfold fillSign
      constructor
      · intro h
        by_cases g1 : x.value < 0
        · rw [if_pos g1] at h; omega
        · rw [if_neg g1] at h
          by_cases g2 : x.signed = true
          · rw [if_pos g2] at h
            refine ⟨h10, g2, by omega, ?_⟩
            cases hf : fmt.sign <;> rw [hf] at h <;> simp [signChar] at h
          · rw [if_neg g2] at h; omega
      · rintro ⟨_, g2, g3, g4⟩
        rw [if_neg (by omega), if_pos g2, g4]; rfl
  · rw [if_neg h10]
    by_cases h8 : fmt.base = 8
    · rw [if_pos h8]
      have hz : (fmt.showbase = true ∧ d.uvalue ≠ 0) ↔ leaderColumns fmt x = 1 := by
        rw [hd, Ne, magnitude_zero _ h10 x hx]
        unfold leaderColumns leader
        rw [if_neg h10]
        split_ifs <;> simp_all
      have hz0 : leaderColumns fmt x = 1 ∨ leaderColumns fmt x = 0 := by
        unfold leaderColumns leader
        rw [if_neg h10]
        split_ifs <;> simp_all
      by_cases hc1 : leaderColumns fmt x = 1
      · have := hz.2 hc1
        rw [if_pos ⟨this.1, this.2⟩]
        refine ⟨{ d with digcount := (digits .lower fmt x).length, hasPrefix := true }, ?_, ⟨hd, rfl, by simp [hc1], fun h => absurd h h10, fun h => absurd h h10⟩⟩
        rw [hc1]
        simp [h8]
      · have h0 : leaderColumns fmt x = 0 := by omega
        rw [if_neg (fun h => hc1 (hz.1 h))]
        refine ⟨{ d with digcount := (digits .lower fmt x).length, hasPrefix := false }, ?_, ⟨hd, rfl, by simp [h0], fun h => absurd h h10, fun h => absurd h h10⟩⟩
        rw [h0]; simp
    · rw [if_neg h8]
      rw [if_neg (fun h : fmt.base = 8 ∧ leaderColumns fmt x = 1 ∧ 0 < fmt.precision => h8 h.1)]
      have hz : leaderColumns fmt x = if fmt.showbase then 2 else 0 := by
        unfold leaderColumns leader
        rw [if_neg h10]
        split_ifs <;> simp_all
      refine ⟨{ d with digcount := (digits .lower fmt x).length, hasPrefix := fmt.showbase }, ?_,
        ⟨hd, rfl, ?_, fun h => absurd h h10, fun h => absurd h h10⟩⟩
      · rw [hz]; cases fmt.showbase <;> rfl
      · dsimp only; rw [hz]; cases fmt.showbase <;> rfl

/-- the zeros, with the number of separators given -/
def zerosN (sepc : Nat) (fmt : Fmt) (x : IntVal) : Nat :=
  max (fmt.precision - digitCount fmt x).toNat
    (fmt.pad0 - (leaderColumns fmt x + (digits .lower fmt x).length + sepc : Nat)).toNat

theorem digits_length_le (fmt : Fmt) (hb : Base fmt.base) (x : IntVal) (hx : x.Ok) (lc : Lettercase) :
    1 ≤ (digits lc fmt x).length ∧ (digits lc fmt x).length ≤ 64 := by
  unfold digits
  rw [text_length]
  have h64 := magnitude_lt64 fmt.base x hx
  refine ⟨len_pos _ _ (by rcases hb with h | h | h | h <;> omega), ?_⟩
  rcases hb with h | hb
  · rw [h] at h64 ⊢; exact len2_le 64 _ (by decide) h64
  · have := len_small fmt.base _ hb h64; omega

theorem digits_length_lc (fmt : Fmt) (x : IntVal) (lc lc' : Lettercase) :
    (digits lc fmt x).length = (digits lc' fmt x).length := by
  unfold digits; rw [text_length, text_length]

/-- formats whose precision and zero padding cause no overflow -/
def Fmt.Ok (fmt : Fmt) : Prop := Base fmt.base ∧ fmt.precision ≤ 2147483582 ∧ fmt.pad0 ≤ 2147483647

theorem zerosPart_ok (fmt : Fmt) (hf : Fmt.Ok fmt) (x : IntVal) (hx : x.Ok) (sepc : Nat) (hsep : sepc ≤ 63) :
    zerosPart (if fmt.base = 8 ∧ leaderColumns fmt x = 1 ∧ 0 < fmt.precision then fmt.precision - 1 else fmt.precision)
        fmt.pad0 (digits .lower fmt x).length ((digits .lower fmt x).length + sepc + leaderColumns fmt x) =
      some ((zerosN sepc fmt x : Int), ((leaderColumns fmt x + (digits .lower fmt x).length + sepc + zerosN sepc fmt x : Nat) : Int)) := by
  obtain ⟨hb, hp, hpad⟩ := hf
  have hd := digits_length_le fmt hb x hx .lower
  have hl := leaderColumns_le fmt x
  have h8 : fmt.base = 8 → leaderColumns fmt x = 1 ∨ leaderColumns fmt x = 0 := by
    intro h; unfold leaderColumns leader
    rw [if_neg (by omega)]; split_ifs <;> simp
  obtain ⟨p, ep⟩ : ∃ p, p = (if fmt.base = 8 ∧ leaderColumns fmt x = 1 ∧ 0 < fmt.precision then fmt.precision - 1 else fmt.precision) := ⟨_, rfl⟩
  rw [← ep]
  have hdc : (p - ((digits .lower fmt x).length : Int)).toNat = (fmt.precision - (digitCount fmt x : Int)).toNat := by
    unfold digitCount
    rw [ep]
    by_cases h : fmt.base = 8
    · have := h8 h
      rw [if_pos h]; split_ifs <;> omega
    · rw [if_neg h, if_neg (by simp [h])]; simp
  have hple : p ≤ 2147483582 := by rw [ep]; split_ifs <;> omega
  have hz : max (if p > ((digits .lower fmt x).length : Int) then p - ((digits .lower fmt x).length : Int) else 0)
      (if fmt.pad0 > ((digits .lower fmt x).length : Int) + sepc + leaderColumns fmt x
        then fmt.pad0 - (((digits .lower fmt x).length : Int) + sepc + leaderColumns fmt x) else 0) = (zerosN sepc fmt x : Int) := by
    unfold zerosN
    rw [← hdc]
    push_cast
    split_ifs <;> omega
  unfold zerosPart
  dsimp only
  rw [hz]
  have hle : (zerosN sepc fmt x : Int) ≤ max (2147483582 - ((digits .lower fmt x).length : Int)) (2147483647 - (((digits .lower fmt x).length : Int) + sepc + leaderColumns fmt x)) := by
    rw [← hz]
    split_ifs <;> omega
  rw [if_pos (by omega)]
  congr 2
  push_cast
  omega

theorem baseLetter_ok (base : Nat) (lc : Lettercase) :
    baseLetter base lc = if base = 16 then (if lc = .upper then 0x58 else 0x78) else (if lc = .upper then 0x42 else 0x62) := by
  unfold baseLetter
  cases lc <;> by_cases h : base = 16 <;> simp [h]

theorem printPrefix_ok (L : Lawful D Rep) (lc : Lettercase) (fmt : Fmt) (hb : Base fmt.base) (x : IntVal) (d : Data)
    (hd : Ready fmt x d) :
    Prints τ D Rep (printPrefix D fmt.base lc d) (leader (fun c => [c]) lc fmt 0x20 x) := by
  intro s t h
  unfold printPrefix
  by_cases h0 : leaderColumns fmt x = 0
  · have hp : d.hasPrefix = false := by rw [hd.hasPrefix]; simp [h0]
    rw [hp]
    have : leader (fun c => [c]) lc fmt 0x20 x = [] := by
      have : (leader (fun c => [c]) lc fmt 0x20 x).length = 0 := by rw [leader_lc_length _ lc .lower]; exact h0
      exact List.length_eq_zero_iff.mp this
    rw [this]
    exact Prints.nil s t h
  · have hp : d.hasPrefix = true := by rw [hd.hasPrefix]; simp [h0]
    rw [hp, if_pos rfl]
    by_cases h10 : fmt.base = 10
    · rw [if_pos h10]
      have e := hd.sign h10 hp
      have : leader (fun c => [c]) lc fmt 0x20 x = [d.sign] := by
        rw [← e]; unfold leader; rw [if_pos h10, if_pos h10]
      rw [this]
      exact L.prints_raw (τ := τ) 1 [d.sign] (by simp) (by omega) s t h
    · rw [if_neg h10]
      have hsb : fmt.showbase = true := by
        by_contra hc
        apply h0; unfold leaderColumns leader
        rw [if_neg h10, if_neg hc]; rfl
      by_cases h8 : fmt.base = 8
      · rw [if_pos h8]
        have hv : ¬ x.value = 0 := by
          intro hc
          apply h0; unfold leaderColumns leader
          rw [if_neg h10, if_pos hsb, if_pos h8, if_pos hc]; rfl
        have : leader (fun c => [c]) lc fmt 0x20 x = [0x30] := by
          unfold leader; rw [if_neg h10, if_pos hsb, if_pos h8, if_neg hv]
        rw [this]
        exact L.prints_raw (τ := τ) 1 [0x30] (by simp) (by omega) s t h
      · rw [if_neg h8, baseLetter_ok]
        unfold leader
        rw [if_neg h10, if_pos hsb, if_neg h8]
        split_ifs <;> exact L.prints_raw (τ := τ) 2 _ (by simp) (by omega) s t h

theorem printFill_ok (HC : C.Lawful D Rep) (n : Int) (ch : Nat) :
    Prints τ D Rep (printFill C n ch) (times C.encodeChar n.toNat ch) := by
  intro s t h
  unfold printFill
  split_ifs with hn
  · exact HC.fill (τ := τ) n ch (by omega) s t h
  · rw [show n.toNat = 0 by omega]
    exact Prints.nil s t h

theorem times_succ (enc : Nat → List Nat) (n ch : Nat) : times enc (n + 1) ch = times enc n ch ++ enc ch := by
  unfold times
  rw [List.replicate_succ', List.flatten_append]; simp

theorem times_length (enc : Nat → List Nat) (n ch : Nat) : (times enc n ch).length = n * (enc ch).length := by
  unfold times; simp

/-- what the fill part computes -/
theorem fillPart_ok (L : Lawful D Rep) (HC : C.Lawful D Rep) (lc : Lettercase) (fmt : Fmt) (hb : Base fmt.base)
    (x : IntVal) (a : AlignFmt) (content : Nat) (d : Data) (hd : Ready fmt x d) :
    let n := (Width.round a.width - content).toNat
    let r := fillPart fmt.base a content d
    Prints τ D Rep (fun s => (printFill C r.1.leftFill r.1.fillchar s).bind (printPrefix D fmt.base lc r.1))
      (times C.encodeChar (before a.align n) a.fill ++ leader C.encodeChar lc fmt a.fill x) ∧
    r.1.rightFill = (n - before a.align n : Nat) ∧ r.1.fillchar = a.fill ∧ r.1.uvalue = d.uvalue ∧
    r.1.digcount = d.digcount ∧ r.1.leadingZeros = d.leadingZeros ∧
    0 ≤ r.2.fillcount ∧ r.2.subWidth + r.2.fillcount = content + n ∧
    (fillSign fmt x → (r.2.subWidth = content - 1 ∧ r.2.fillcount = n + 1) ∨ (r.2.subWidth = content ∧ r.2.fillcount = 0 ∧ n = 0 ∧ a.fill = 0x20)) ∧
    (¬ fillSign fmt x → r.2.subWidth = content ∧ r.2.fillcount = n) := by
  intro n r
  have hpp := printPrefix_ok (τ := τ) L lc fmt hb x d hd
  have hplain : ∀ d' : Data, d'.hasPrefix = d.hasPrefix → d'.sign = d.sign →
      printPrefix D fmt.base lc d' = printPrefix D fmt.base lc d := by
    intro d' h1 h2; funext s; unfold printPrefix; rw [h1, h2]
  have hnone : ∀ d' : Data, d'.hasPrefix = false → printPrefix D fmt.base lc d' = fun s => some s := by
    intro d' h1; funext s; unfold printPrefix; rw [h1]; rfl
  by_cases hfs : fillSign fmt x
  · have h10 := hfs.1
    have hsg : d.sign = 0x20 := (hd.space h10).2 hfs
    have hlead := leader_fill C.encodeChar lc fmt a.fill x hfs
    by_cases hw : Width.round a.width ≤ content
    · have hn0 : n = 0 := by show (Width.round a.width - (content : Int)).toNat = 0; omega
      have hbf : before a.align n = 0 := by rw [hn0]; cases a.align <;> rfl
      by_cases hf : a.fill = 0x20
      · have hr : r = ({ d with fillchar := a.fill, leftFill := 0, rightFill := 0, hasPrefix := d.hasPrefix && true },
            ⟨(content : Int) - 0, 0⟩) := by
          show fillPart _ _ _ _ = _
          unfold fillPart
          dsimp only
          rw [if_pos hw]
          simp [hsg, h10, hf, b2i]
        rw [hr]
        refine ⟨?_, by rw [hbf, hn0]; rfl, rfl, rfl, rfl, rfl, by simp, by rw [hn0]; simp, fun _ => .inr ⟨by simp, rfl, hn0, hf⟩, fun h => absurd hfs h⟩
        dsimp only
        have := Prints.comp (printFill_ok HC 0 a.fill) hpp
        rw [hplain { d with fillchar := a.fill, leftFill := 0, rightFill := 0, hasPrefix := d.hasPrefix && true } (by simp) rfl]
        rw [hbf, hlead, hf, HC.ascii 0x20 (by decide)]
        rw [leader_fill _ _ _ _ _ hfs] at this
        rw [hf] at this
        exact this
      · have hr : r = ({ d with fillchar := a.fill, leftFill := 1, rightFill := 0, hasPrefix := false },
            ⟨(content : Int) - 1, 1⟩) := by
          show fillPart _ _ _ _ = _
          unfold fillPart
          dsimp only
          rw [if_pos hw]
          simp [hsg, h10, hf, b2i]
        rw [hr]
        refine ⟨?_, by rw [hbf, hn0]; rfl, rfl, rfl, rfl, rfl, by simp, by rw [hn0]; simp, fun _ => .inl ⟨rfl, by rw [hn0]; rfl⟩, fun h => absurd hfs h⟩
        dsimp only
        have := Prints.comp (printFill_ok HC 1 a.fill) (Prints.nil (τ := τ) (D := D) (Rep := Rep))
        rw [hnone _ rfl, hbf, hlead]
        have e : times C.encodeChar 0 a.fill ++ C.encodeChar a.fill = times C.encodeChar (Int.toNat 1) a.fill ++ [] := by
          simp [times]
        rw [e]
        exact this
    · have hn : (n : Int) = Width.round a.width - content := by
        show ((Width.round a.width - (content : Int)).toNat : Int) = _; omega
      have key : ∀ k : Int, k = before a.align n → Prints τ D Rep (fun s => (printFill C (k + 1) a.fill s).bind
          (fun s => some s)) (times C.encodeChar (before a.align n) a.fill ++ leader C.encodeChar lc fmt a.fill x) := by
        intro k hk
        have := Prints.comp (printFill_ok HC (k + 1) a.fill) (Prints.nil (τ := τ) (D := D) (Rep := Rep))
        rw [List.append_nil, show (k + 1).toNat = before a.align n + 1 by omega, times_succ] at this
        rw [hlead]
        exact this
      have hr : r = fillPart fmt.base a content d := rfl
      unfold fillPart at hr
      dsimp only at hr
      rw [if_neg hw] at hr
      simp only [hsg, h10, decide_true, Bool.and_true, b2i, if_true, Bool.not_true, Bool.and_false] at hr
      cases ha : a.align <;> rw [ha] at hr key <;> dsimp only at hr <;> rw [hr]
      · refine ⟨?_, ?_, rfl, rfl, rfl, rfl, by dsimp only; omega, by dsimp only; omega, fun _ => .inl ⟨rfl, by dsimp only; omega⟩, fun h => absurd hfs h⟩
        · rw [hnone _ rfl]; exact key 0 rfl
        · simp only [before]; omega
      · refine ⟨?_, ?_, rfl, rfl, rfl, rfl, by dsimp only; omega, by dsimp only; omega, fun _ => .inl ⟨rfl, by dsimp only; omega⟩, fun h => absurd hfs h⟩
        · rw [hnone _ rfl]; exact key _ (by simp only [before]; omega)
        · simp only [before]; omega
      · refine ⟨?_, ?_, rfl, rfl, rfl, rfl, by dsimp only; omega, by dsimp only; omega, fun _ => .inl ⟨rfl, by dsimp only; omega⟩, fun h => absurd hfs h⟩
        · rw [hnone _ rfl]; exact key _ (by simp only [before]; omega)
        · simp only [before]; omega
  · have hlead := leader_plain C.encodeChar (fun c => [c]) lc fmt a.fill 0x20 x hfs
    have hsg : (decide (fmt.base = 10) && decide (d.sign = 0x20)) = false := by
      by_cases h10 : fmt.base = 10
      · have := (hd.space h10).not.2 hfs; simp [this]
      · simp [h10]
    have key : ∀ d' : Data, d'.hasPrefix = d.hasPrefix → d'.sign = d.sign → d'.leftFill = before a.align n →
        d'.fillchar = a.fill → Prints τ D Rep (fun s => (printFill C d'.leftFill d'.fillchar s).bind
        (printPrefix D fmt.base lc d')) (times C.encodeChar (before a.align n) a.fill ++ leader C.encodeChar lc fmt a.fill x) := by
      intro d' h1 h2 h3 h4
      have := Prints.comp (printFill_ok HC d'.leftFill a.fill) hpp
      rw [show d'.leftFill.toNat = before a.align n by omega] at this
      rw [hlead, hplain d' h1 h2, h4]
      exact this
    have hr : r = fillPart fmt.base a content d := rfl
    unfold fillPart at hr
    dsimp only at hr
    simp only [hsg, b2i, Bool.false_and, Bool.not_false, Bool.and_true] at hr
    by_cases hw : Width.round a.width ≤ content
    · have hn0 : n = 0 := by show (Width.round a.width - (content : Int)).toNat = 0; omega
      have hbf : before a.align n = 0 := by rw [hn0]; cases a.align <;> rfl
      rw [if_pos hw] at hr
      rw [hr]
      refine ⟨?_, by rw [hbf, hn0]; rfl, rfl, rfl, rfl, rfl, by simp, by rw [hn0]; simp, fun h => absurd h hfs, fun _ => ⟨by simp, by rw [hn0]; simp⟩⟩
      refine key _ rfl rfl ?_ rfl
      rw [hbf]; rfl
    · have hn : (n : Int) = Width.round a.width - content := by
        show ((Width.round a.width - (content : Int)).toNat : Int) = _; omega
      rw [if_neg hw] at hr
      simp only [if_false, Bool.false_eq_true, Int.add_zero, Int.sub_zero] at hr
      cases ha : a.align <;> rw [ha] at hr key <;> dsimp only at hr <;> rw [hr]
      · refine ⟨?_, ?_, rfl, rfl, rfl, rfl, by dsimp only; omega, by dsimp only; omega, fun h => absurd h hfs, fun _ => ⟨rfl, by dsimp only; omega⟩⟩
        · exact key _ rfl rfl rfl rfl
        · simp only [before]; omega
      · refine ⟨?_, ?_, rfl, rfl, rfl, rfl, by dsimp only; omega, by dsimp only; omega, fun h => absurd h hfs, fun _ => ⟨rfl, by dsimp only; omega⟩⟩
        · refine key _ rfl rfl ?_ rfl; simp only [before]; omega
        · simp only [before]; omega
      · refine ⟨?_, ?_, rfl, rfl, rfl, rfl, by dsimp only; omega, by dsimp only; omega, fun h => absurd h hfs, fun _ => ⟨rfl, by dsimp only; omega⟩⟩
        · refine key _ rfl rfl ?_ rfl; simp only [before]; omega
        · simp only [before]; omega

end Strf.IntPrinter

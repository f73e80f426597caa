import Verif.Punct.Read
import Verif.Punct.Table
import Verif.Program.Laws
import Verif.Dragonbox.RoundProps
import Verif.Program.Plain
/-!
# C86: punctuated numbers are read back

A number printed with punctuation is read back as the same number by whoever knows the facet in force (`plain`), if separator and decimal point are clear
(`Clear`). Those of the predefined facets are, and with these every integer and every finite floating-point number is read back.
-/
namespace Strf.Punct
open Strf.Format
open Strf.Print (Meaning)
open Strf.IntDigits.Spec (Lettercase)
open Strf.IntPrinter.Spec (Layout)
open Strf.Numpunct (ctor2)
open Strf.Numpunct.Spec (Valid args)
open Strf.Float.Spec (readNumber)
open Strf.Float (FloatT signBit expBits manBits decode)
open Strf.Dragonbox (toDecimal)
open Strf.Dragonbox.Spec (ReadsAs IsShortest decimal)
open Strf.Float.Spec (Rounded lastPlace sciExp)
open Strf.Program

/-- the separator that a reader has to expect: none if digits are not grouped -/
def separator (gs : List Nat) (sep : Nat) : Option Nat := if gs = [] then none else some sep

theorem separator_ok {gs : List Nat} {rep : Bool} (h : Valid gs rep) (s : Nat) :
    if gs = [] then separator gs s = none ∧ rep = false else separator gs s = some s := by
  unfold separator
  split
  · rename_i hg; exact ⟨rfl, h.2.2 hg⟩
  · rfl

variable {T : CharT} {K : CharT → CharsetArg} {fp : Pack} {B : Int} {m : Meaning}

theorem enc_ascii (T : CharT) (K : CharT → CharsetArg) : ∀ c, c < 0x80 → enc T K c = [c] :=
  (charset_lawful Dest.Maker.lawful (K T).name).ascii

theorem round_nonpos {w n : Int} (h : WidthSpec.IsRound w n) (hw : w ≤ 0) : n ≤ 0 := by
  unfold WidthSpec.IsRound at h
  omega

/-- Without precision, the value of the shape is the number, whatever the grouping. -/
theorem shape_value (gs : List Nat) (rep : Bool) (n : Float.Spec.Notation) (alt : Bool) (m : Nat) (e : Int) (sh : Float.Spec.Shape)
    (h : sh = Float.Spec.shape gs rep n none alt m e) : (sh.digits : ℚ) * 10 ^ (sh.exp.getD 0 - sh.frac) = (m : ℚ) * 10 ^ e := by
  have hf := Float.shape_value .fixed alt m e
  have hs := Float.shape_value .scientific alt m e
  subst h
  cases n with
  | fixed => exact hf
  | scientific => exact hs
  | general =>
    unfold Float.Spec.shape
    dsimp only
    split
    · exact hs
    · exact hf

/-! ## Any facets -/

/-- C86: an integer in base 10 with `.punct()`, whatever the other options, the facets and the charset, if its sign is not to be replaced and it is not
aligned: the text consists of characters that are digits, signs and separators, and read with the facet in force they are the integer. -/
theorem int_read_back {t : IntTy} {cs : List IntCall} {x : Int} (h : Denotes T K fp B (.int t cs x) m) {np : Numpunct.Facet}
    (hnp : Holds fp (.int t) (.numpunct 10 np)) {gs : List Nat} {rep : Bool} (hv : Valid gs rep) (hg : np.grouping = ctor2 (args gs rep))
    (hclear : Clear (separator gs np.thousandsSep) np.decimalPoint) (hp : punctuated cs = true) (hb : (usedOptions cs).base = 10)
    (hsign : (usedOptions cs).sign ≠ .fillInstead) (hw : widthOf (alignCalls cs) ≤ 0) :
    ∃ chars : List Nat, m.text = chars.flatMap (enc T K) ∧
      (∀ c ∈ chars, isNumeric c = true ∨ c = np.decimalPoint ∨ (gs ≠ [] ∧ c = np.thousandsSep)) ∧
      readNumber (plain (separator gs np.thousandsSep) np.decimalPoint chars) = some (decide (x < 0), (x.natAbs : ℚ)) := by
  cases h with
  | int lay lc np' gs' rep' hl hlc hnp' hok =>
    rw [hb] at hnp'
    have e : FacetArg.numpunct 10 np' = .numpunct 10 np := Facets.InForce.unique hnp' hnp
    injection e with _ e
    subst e
    have hgr := hok.grouping
    rw [if_pos hp, hg, Numpunct.ctor_injective _ _ _ _ hv hok.valid] at hgr
    obtain ⟨rfl, rfl⟩ := hgr
    exact integer_reads (enc_ascii T K) hclear lc gs rep (separator_ok hv _) (usedOptions cs) hb hsign lay (round_nonpos hl.columns hw)
      (t.val x) hok.value

/-- C86: a finite floating-point number with `.punct()` and without precision, in any notation but the hexadecimal, whatever the other options, the facets and
the charset (if it can encode the separator), if its sign is not to be replaced and it is not aligned: the text consists of digits, signs, 'e' or 'E',
separators and the decimal point; and what is read with the facet in force is, rounded to the type, the number. -/
theorem float_read_back {F : FloatT} {cs : List FloatCall} {bits : Nat} (h : Denotes T K fp B (.float F cs bits) m) (hfin : Float.Finite F bits)
    {np : Numpunct.Facet} (hnp : Holds fp (.float F) (.numpunct 10 np)) {gs : List Nat} {rep : Bool} (hv : Valid gs rep)
    (hg : np.grouping = ctor2 (args gs rep)) (hclear : Clear (separator gs np.thousandsSep) np.decimalPoint)
    (hsep : (ref (K T).name).validate np.thousandsSep ≠ none) (hp : (floatOptions cs).punctuate = true) (hprec : (floatOptions cs).precision = -1)
    (hnota : (floatOptions cs).nota ≠ .hex) (hsign : (floatOptions cs).sign ≠ .fillInstead) (hw : widthOf (floatAlignCalls cs) ≤ 0) :
    ∃ (chars : List Nat) (q : ℚ), m.text = chars.flatMap (enc T K) ∧
      (∀ c ∈ chars, isNumeric c = true ∨ c = np.decimalPoint ∨ (gs ≠ [] ∧ c = np.thousandsSep)) ∧
      readNumber (plain (separator gs np.thousandsSep) np.decimalPoint chars) = some (signBit F bits, q) ∧
      ReadsAs F.mSize F.eSize (expBits F bits) (manBits F bits) q := by
  cases h with
  | float lay lc np' np16 gs' rep' hl hlc _ hnp' hnp16 hok =>
    have e : FacetArg.numpunct 10 np' = .numpunct 10 np := Facets.InForce.unique hnp' hnp
    injection e with _ e
    subst e
    have hgr := hok.grouping
    rw [hg, Numpunct.ctor_injective _ _ _ _ hv hok.valid] at hgr
    obtain ⟨rfl, rfl⟩ := hgr
    have hu : Float.usedGroups (ref (K T).name) np' (floatOptions cs) gs rep = (gs, rep) := by
      unfold Float.usedGroups; rw [if_pos ⟨hp, hsep⟩]
    have hpt : Float.usedPoint np' (floatOptions cs) = np'.decimalPoint := by unfold Float.usedPoint; rw [hp]; rfl
    have hsp : Float.usedSep np' (floatOptions cs) = np'.thousandsSep := by unfold Float.usedSep; rw [hp]; rfl
    obtain ⟨chars, h1, h2, _, h3⟩ := finite_reads (enc_ascii T K) hclear lc gs rep (separator_ok hv _) (floatOptions cs) hsign lay
      (round_nonpos hl.columns hw) (signBit F bits) (decode toDecimal F bits).m10 (decode toDecimal F bits).e10 _ rfl
    have hpr : Float.precision (floatOptions cs).precision = none := by rw [hprec]; rfl
    rw [hpr] at h3
    rw [shape_value gs rep _ _ _ _ _ rfl] at h3
    refine ⟨chars, _, ?_, h2, h3, Dragonbox.decode_reads hfin⟩
    rw [hu, hpt, hsp, ← h1]
    simp only [Meaning.ofColumns, floatText]
    rw [if_neg hfin, if_neg hnota]

/-- C86: and with `.punct()` and a precision `n`, what is read with the facet in force is the shortest decimal number that stands for the number, rounded to the
nearest with that many digits, ties to even. -/
theorem float_precision_read_back {F : FloatT} {cs : List FloatCall} {bits : Nat} (h : Denotes T K fp B (.float F cs bits) m) (hfin : Float.Finite F bits)
    {np : Numpunct.Facet} (hnp : Holds fp (.float F) (.numpunct 10 np)) {gs : List Nat} {rep : Bool} (hv : Valid gs rep)
    (hg : np.grouping = ctor2 (args gs rep)) (hclear : Clear (separator gs np.thousandsSep) np.decimalPoint)
    (hsep : (ref (K T).name).validate np.thousandsSep ≠ none) (hp : (floatOptions cs).punctuate = true) (n : Nat) (hprec : (floatOptions cs).precision = n)
    (hnota : (floatOptions cs).nota ≠ .hex) (hsign : (floatOptions cs).sign ≠ .fillInstead) (hw : widthOf (floatAlignCalls cs) ≤ 0) :
    ∃ (chars : List Nat) (q : ℚ) (d : Nat) (e : Int), m.text = chars.flatMap (enc T K) ∧
      (∀ c ∈ chars, isNumeric c = true ∨ c = np.decimalPoint ∨ (gs ≠ [] ∧ c = np.thousandsSep)) ∧
      readNumber (plain (separator gs np.thousandsSep) np.decimalPoint chars) = some (signBit F bits, q) ∧
      ReadsAs F.mSize F.eSize (expBits F bits) (manBits F bits) (decimal d e) ∧
      (¬ (expBits F bits = 0 ∧ manBits F bits = 0) → IsShortest F.mSize F.eSize (expBits F bits) (manBits F bits) d e) ∧
      Rounded (10 ^ lastPlace (Float.specNotation (floatOptions cs).nota) n (sciExp d e)) (decimal d e) q := by
  cases h with
  | float lay lc np' np16 gs' rep' hl hlc _ hnp' hnp16 hok =>
    have e : FacetArg.numpunct 10 np' = .numpunct 10 np := Facets.InForce.unique hnp' hnp
    injection e with _ e
    subst e
    have hgr := hok.grouping
    rw [hg, Numpunct.ctor_injective _ _ _ _ hv hok.valid] at hgr
    obtain ⟨rfl, rfl⟩ := hgr
    have hu : Float.usedGroups (ref (K T).name) np' (floatOptions cs) gs rep = (gs, rep) := by
      unfold Float.usedGroups; rw [if_pos ⟨hp, hsep⟩]
    have hpt : Float.usedPoint np' (floatOptions cs) = np'.decimalPoint := by unfold Float.usedPoint; rw [hp]; rfl
    have hsp : Float.usedSep np' (floatOptions cs) = np'.thousandsSep := by unfold Float.usedSep; rw [hp]; rfl
    obtain ⟨chars, h1, h2, _, h3⟩ := finite_reads (enc_ascii T K) hclear lc gs rep (separator_ok hv _) (floatOptions cs) hsign lay
      (round_nonpos hl.columns hw) (signBit F bits) (decode toDecimal F bits).m10 (decode toDecimal F bits).e10 _ rfl
    have hpr : Float.precision (floatOptions cs).precision = some n := by
      unfold Float.precision; rw [if_neg (by omega), hprec, Int.toNat_natCast]
    have hsh : Float.Spec.shape gs rep (Float.specNotation (floatOptions cs).nota) (some n) (floatOptions cs).showpoint (decode toDecimal F bits).m10 (decode toDecimal F bits).e10 =
        Float.Spec.shape [] false (Float.specNotation (floatOptions cs).nota) (some n) (floatOptions cs).showpoint (decode toDecimal F bits).m10 (decode toDecimal F bits).e10 := by
      cases Float.specNotation (floatOptions cs).nota <;> rfl
    rw [hpr, hsh] at h3
    refine ⟨chars, _, _, _, ?_, h2, h3, Dragonbox.decode_reads hfin, fun h0 => ?_, Float.shape_rounded _ _ _ _ _⟩
    · rw [hu, hpt, hsp, ← h1]
      simp only [Meaning.ofColumns, floatText]
      rw [if_neg hfin, if_neg hnota]
    · rcases Float.decode_cases hfin with ⟨g1, g2, -, -⟩ | ⟨-, he⟩
      · exact absurd ⟨g1, g2⟩ h0
      · have := Dragonbox.to_decimal_shortest F _ _ (Float.isFinite_of hfin) h0
        rw [← he] at this
        exact this

/-! ## The predefined facets -/

/-- the grouping of a predefined facet -/
def Named.sizes (n : Named) : List Nat := n.groups.map Int.toNat

/-- the separator that a reader has to expect -/
def Named.separator (n : Named) : Option Nat := Punct.separator n.sizes n.facet.thousandsSep

/-- what is checked of each of them -/
def Named.Sound (n : Named) : Prop :=
  Valid n.sizes (!n.sizes.isEmpty) ∧ n.facet.grouping = ctor2 (args n.sizes (!n.sizes.isEmpty)) ∧ n.facet.decimalPoint = n.point ∧
    Clear n.separator n.point ∧ Utf.Scalar false n.facet.thousandsSep ∧ Utf.Scalar false n.point

instance (n : Named) : Decidable n.Sound := by unfold Named.Sound; infer_instance

/-- C86: The groups of each predefined facet are those written in its definition; separator and decimal point are characters, and clear. -/
theorem predefined_sound : ∀ n ∈ predefined, n.Sound := by decide +kernel

/-- a call with a predefined facet -/
def Named.call (n : Named) (a : Arg) : Call := ⟨[], [.facet (.numpunct 10) (.numpunct 10 n.facet)], [a], false⟩

theorem Named.typed (n : Named) (a : Arg) : AllTyped (n.call a).pack := by
  simp [Named.call, Call.pack, AllTyped, Typed, FacetArg.cat, FacetArg.Typed]

theorem Named.charsets (n : Named) (a : Arg) : CharsetsAre (n.call a).pack utfs := fun _ _ => .inr ⟨rfl, rfl⟩

theorem Named.holds (n : Named) (a : Arg) (tag : Tag) : Holds (n.call a).pack tag (.numpunct 10 n.facet) := .inl ⟨[], rfl⟩

theorem Named.holds16 (n : Named) (a : Arg) (tag : Tag) : Holds (n.call a).pack tag (.numpunct 16 Numpunct.Facet.default) := .inr ⟨rfl, rfl⟩

theorem Named.case (n : Named) (a : Arg) (tag : Tag) : Holds (n.call a).pack tag (.lettercase .lower) := .inr ⟨rfl, rfl⟩

theorem validate_some (T : CharT) (c : Nat) (h : Utf.Scalar false c) : (ref (utfs T).name).validate c ≠ none := by
  unfold ref utfs
  rw [utfOf_enc]
  show (if Utf.validate (encOf T) c < 0 then none else some (Utf.validate (encOf T) c).toNat) ≠ none
  rw [(Utf.encode_char_exact (encOf T) c h).2.2.1, if_neg (by omega)]
  simp

theorem numeric_scalar {c : Nat} (h : isNumeric c = true) : Utf.Scalar false c := by
  unfold isNumeric at h
  simp only [Bool.or_eq_true, decide_eq_true_eq, List.contains_iff_mem, List.mem_cons, List.not_mem_nil, or_false] at h
  unfold Utf.Scalar Utf.IsSurr
  omega

/-- characters of a number are parsed from their encoding -/
theorem chars_parse (T : CharT) {n : Named} (hn : n.Sound) {chars : List Nat}
    (h : ∀ c ∈ chars, isNumeric c = true ∨ c = n.facet.decimalPoint ∨ (n.sizes ≠ [] ∧ c = n.facet.thousandsSep)) :
    Utf.Parses (encOf T) false (chars.flatMap (enc T utfs)) (chars.map .ch) := by
  have hs : ∀ c ∈ chars, Utf.Scalar false c := by
    intro c hc
    rcases h c hc with h | rfl | ⟨_, rfl⟩
    · exact numeric_scalar h
    · rw [hn.2.2.1]; exact hn.2.2.2.2.2
    · exact hn.2.2.2.2.1
  have he : chars.flatMap (enc T utfs) = chars.flatMap (Utf.encode (encOf T)) := by
    rw [List.flatMap_def, List.flatMap_def]
    congr 1
    exact List.map_congr_left fun c hc => enc_scalar c (hs c hc)
  rw [he]
  exact Utf.parses_wf (fun _ => rfl) chars hs

/-- C86: `to(dst)(numpunct_NAME, punct(x))`: for each of the predefined facets, each integer type, each value and each character type, the call prints the
characters of the number, in UTF-8, 16 or 32: digits, a sign and the separators of the facet; and read with the facet they are `x`. -/
theorem predefined_int (n : Named) (hn : n ∈ predefined) (T : CharT) (t : IntTy) (x : Int) (hx : (t.val x).Ok) :
    ∃ text chars, Writes T (n.call (.int t [.punct] x)) text ∧ Utf.Parses (encOf T) false text (chars.map .ch) ∧
      readNumber (plain n.separator n.point chars) = some (decide (x < 0), (x.natAbs : ℚ)) := by
  have hs := predefined_sound n hn
  have hd := Denotes.int (T := T) (K := utfs) (B := 0) .none .lower n.facet n.sizes (!n.sizes.isEmpty)
    (cs := [.punct]) ⟨rfl, rfl, by decide, Width.round_correct 0 (by decide)⟩ (n.case (.int t [.punct] x) (.int t)) (n.holds (.int t [.punct] x) (.int t))
    (x := x) ⟨rfl, no_dynamic_keeps _ (by decide), by unfold SignOnly; decide, by decide, by decide, hs.1, hs.2.1, hx,
      .inr (.inr (validate_some T _ hs.2.2.2.2.1)), .inl (by decide)⟩
  have hc := hs.2.2.2.1
  rw [← hs.2.2.1] at hc
  obtain ⟨chars, h1, h2, h3⟩ := int_read_back hd (n.holds _ _) hs.1 hs.2.1 hc rfl rfl (by decide) (by decide)
  refine ⟨_, chars, means_writes ⟨n.typed _, utfs, n.charsets _, .cons hd .nil⟩, ?_, ?_⟩
  · have := chars_parse T hs h2
    rw [← h1] at this
    simpa [Call.text, Print.total, Named.call] using this
  · rw [hs.2.2.1] at h3; exact h3

/-- what a floating-point number with a predefined facet means -/
theorem Named.denotes_float {n : Named} (hs : n.Sound) (T : CharT) (F : FloatT) (cs : List FloatCall) (bits : Nat) {p : Int} {nota : Float.Notation}
    (hnota : nota ≠ .hex) (ho : floatOptions cs = ⟨p, 0, nota, .negativeOnly, false, true⟩) (ha : floatAlignCalls cs = [])
    (hf : Float.FmtOk (floatOptions cs))
    (hc : Float.CarryOk n.sizes (!n.sizes.isEmpty) (Float.specNotation nota) (Float.precision p) false .negativeOnly (signBit F bits)
      (decode toDecimal F bits).m10 (decode toDecimal F bits).e10) :
    ∃ m, Denotes T utfs (n.call (.float F cs bits)).pack 0 (.float F cs bits) m := by
  refine ⟨_, Denotes.float .none .lower n.facet Numpunct.Facet.default n.sizes (!n.sizes.isEmpty)
    (by rw [ha]; exact ⟨rfl, rfl, by decide, Width.round_correct 0 (by decide)⟩) (n.case (.float F cs bits) _) (fun _ => n.case _ _)
    (n.holds (.float F cs bits) _) (n.holds16 (.float F cs bits) _) ⟨hs.1, hs.2.1, fun _ => ?_, .inr ⟨hf, ?_⟩⟩⟩
  · have := Float.cast_utf (σ := Dest.Maker Nat) Dest.Maker.dest (encOf T) n.facet.thousandsSep (Nat.lt_trans (Utf.scalar_lt hs.2.2.2.2.1) (by decide))
    unfold ref utfs
    rw [utfOf_enc]
    have hT : 8 * T.size = (match encOf T with | .utf8 => 8 | .utf16 => 16 | .utf32 => 32) := by
      cases T <;> try rfl
      rename_i four; cases four <;> rfl
    rw [hT]
    generalize encOf T = e at *
    cases e <;> exact this
  · have hu : Float.usedGroups (ref (utfs T).name) n.facet (floatOptions cs) n.sizes (!n.sizes.isEmpty) = (n.sizes, !n.sizes.isEmpty) := by
      unfold Float.usedGroups; rw [if_pos ⟨by rw [ho], validate_some T _ hs.2.2.2.2.1⟩]
    rw [hu, ho]
    dsimp only
    rw [if_neg hnota]
    exact hc

/-- C86: `to(dst)(numpunct_NAME, punct(x))`, `punct(fixed(x))`, `punct(sci(x))`: for each of the predefined facets, each finite floating-point number and each
character type, the call prints the characters of a number, and the number that is read with the facet is, rounded to the type, `x`. -/
theorem predefined_float (n : Named) (hn : n ∈ predefined) (T : CharT) (F : FloatT) (cs : List FloatCall)
    (hcs : cs = [.punct] ∨ cs = [.fixed, .punct] ∨ cs = [.sci, .punct]) (bits : Nat) (hfin : Float.Finite F bits) :
    ∃ text chars q, Writes T (n.call (.float F cs bits)) text ∧ Utf.Parses (encOf T) false text (chars.map .ch) ∧
      readNumber (plain n.separator n.point chars) = some (signBit F bits, q) ∧
      ReadsAs F.mSize F.eSize (expBits F bits) (manBits F bits) q := by
  have hs := predefined_sound n hn
  have ho : ∃ nota, nota ≠ .hex ∧ floatOptions cs = ⟨-1, 0, nota, .negativeOnly, false, true⟩ := by
    rcases hcs with rfl | rfl | rfl
    · exact ⟨.general, by decide, rfl⟩
    · exact ⟨.fixed, by decide, rfl⟩
    · exact ⟨.scientific, by decide, rfl⟩
  have ha : floatAlignCalls cs = [] := by rcases hcs with rfl | rfl | rfl <;> rfl
  obtain ⟨nota, hnota, ho⟩ := ho
  obtain ⟨m, hd⟩ := Named.denotes_float hs T F cs bits hnota ho ha (by rw [ho]; exact ⟨.inl rfl, by show (0 : Int) ≤ _; decide⟩)
    (Float.no_precision_carry _ _ _ _ _ _ _ _)
  have hc := hs.2.2.2.1
  rw [← hs.2.2.1] at hc
  obtain ⟨chars, q, h1, h2, h3, h4⟩ := float_read_back hd hfin (n.holds _ _) hs.1 hs.2.1 hc (validate_some T _ hs.2.2.2.2.1)
    (by rw [ho]) (by rw [ho]) (by rw [ho]; exact hnota) (by rw [ho]; intro h; cases h) (by rw [ha]; decide)
  refine ⟨_, chars, q, means_writes ⟨n.typed _, utfs, n.charsets _, .cons hd .nil⟩, ?_, ?_, h4⟩
  · have := chars_parse T hs h2
    rw [← h1] at this
    simpa [Call.text, Print.total, Named.call] using this
  · rw [hs.2.2.1] at h3; exact h3

/-- C86: `to(dst)(numpunct_NAME, punct(sci(x).p(k)))`, for each of the predefined facets, each finite floating-point number, each character type and each
precision up to 2²⁹: the number that is read with the facet is the shortest decimal number that stands for `x`, rounded to `k` digits after the first. -/
theorem predefined_float_precision (n : Named) (hn : n ∈ predefined) (T : CharT) (F : FloatT) (k : Nat) (hk : k ≤ 2 ^ 29)
    (bits : Nat) (hfin : Float.Finite F bits) :
    ∃ text chars q d e, Writes T (n.call (.float F [.sci, .p k, .punct] bits)) text ∧ Utf.Parses (encOf T) false text (chars.map .ch) ∧
      readNumber (plain n.separator n.point chars) = some (signBit F bits, q) ∧
      ReadsAs F.mSize F.eSize (expBits F bits) (manBits F bits) (decimal d e) ∧
      (¬ (expBits F bits = 0 ∧ manBits F bits = 0) → IsShortest F.mSize F.eSize (expBits F bits) (manBits F bits) d e) ∧
      Rounded (10 ^ lastPlace .scientific k (sciExp d e)) (decimal d e) q := by
  have hs := predefined_sound n hn
  have ho : floatOptions [.sci, .p k, .punct] = ⟨k, 0, .scientific, .negativeOnly, false, true⟩ := rfl
  have ha : floatAlignCalls [.sci, .p k, .punct] = [] := rfl
  obtain ⟨m, hd⟩ := Named.denotes_float (p := (k : Int)) hs T F [.sci, .p k, .punct] bits (by decide) ho ha (by rw [ho]; exact ⟨.inr ⟨Int.natCast_nonneg k, by show (k : Int) ≤ _; omega⟩, by show (0 : Int) ≤ _; decide⟩)
    (by
      have : Float.precision (k : Int) = some k := by unfold Float.precision; rw [if_neg (by omega), Int.toNat_natCast]
      rw [this]; trivial)
  have hc := hs.2.2.2.1
  rw [← hs.2.2.1] at hc
  obtain ⟨chars, q, d, e, h1, h2, h3, h4, h5, h6⟩ := float_precision_read_back hd hfin (n.holds _ _) hs.1 hs.2.1 hc (validate_some T _ hs.2.2.2.2.1)
    (by rw [ho]) k (by rw [ho]) (by rw [ho]; intro h; cases h) (by rw [ho]; intro h; cases h) (by rw [ha]; decide)
  refine ⟨_, chars, q, d, e, means_writes ⟨n.typed _, utfs, n.charsets _, .cons hd .nil⟩, ?_, ?_, h4, h5, h6⟩
  · have := chars_parse T hs h2
    rw [← h1] at this
    simpa [Call.text, Print.total, Named.call] using this
  · rw [hs.2.2.1] at h3; exact h3

/-! ## Examples -/

def deDE : Named := ⟨"de_DE", [3], 0x2C, some 0x2E⟩
def unmUS : Named := (predefined.find? (·.name = "unm_US")).getD deDE

/-- `to_u8string(numpunct_de_DE, punct(-1234567))`; `to_u16string(numpunct_unm_US, punct(123456789))` has the separator U+202F after the groups 2, 2, 2, 3;
`to_u8string(numpunct_de_DE, punct(fixed(1234567.5)))` -/
example : deDE ∈ predefined ∧ (intTy.val (-1234567)).Ok ∧ callPrinted .char8 (deDE.call (.int intTy [.punct] (-1234567))) = some (Print.txt "-1.234.567") ∧
    plain deDE.separator deDE.point (Print.txt "-1.234.567") = Print.txt "-1234567" ∧
    readNumber (Print.txt "-1234567") = some (true, 1234567) := by decide +kernel

example : unmUS ∈ predefined ∧ unmUS.sizes = [2, 2, 2, 3] ∧ callPrinted .char16 (unmUS.call (.int intTy [.punct] 123456789)) =
    some (Print.txt "123" ++ [0x202F] ++ Print.txt "45" ++ [0x202F] ++ Print.txt "67" ++ [0x202F] ++ Print.txt "89") := by decide +kernel

example : callPrinted .char8 (deDE.call (.float .double [.fixed, .punct] 0x4132D68780000000)) = some (Print.txt "1.234.567,5") ∧
    plain deDE.separator deDE.point (Print.txt "1.234.567,5") = Print.txt "1234567.5" := by decide +kernel

example : Float.Finite .double 0x4132D68780000000 := by unfold Float.Finite; decide

/-- `to_u8string(numpunct_de_DE, punct(sci(1234567.5).p(3)))` -/
example : callPrinted .char8 (deDE.call (.float .double [.sci, .p 3, .punct] 0x4132D68780000000)) = some (Print.txt "1,235e+06") := by decide +kernel

/-- with a separator that is also the decimal point the number could be taken for another one -/
example : ¬ Clear (separator [3] 0x2C) 0x2C ∧ Clear (separator [] 0x2C) 0x2C := by decide

end Strf.Punct

import Verif.Format.FloatModel
import Verif.Format.IntProps
import Verif.Float.Props
import Verif.Float.ReadBack
/-!
# C68: chains of format functions of floating-point numbers
-/
namespace Strf.Format
open Strf.IntPrinter.Spec Strf.IntDigits.Spec
open Strf.IntPrinter (AlignFmt LayoutOf b2i)
open Strf.Float (FloatT FloatFmt Notation Fast Printer decode Finite signBit manBits usedGroups usedPoint usedSep CastOk FmtOk
  finite finiteWidth specialText specialWidth)
open Strf.Float.Spec (number shape arranged arrangedWidth)
open Strf.Print (Item Charset Meaning fixed_means Pre columnsWidth)
open Strf.Dest (Dest Lawful Prints)
open Strf.Numpunct.Spec (Valid args)
open Strf.Width (wmax)
open Strf.Dragonbox (toDecimal)

variable {σ : Type} {D : Dest Nat σ} {Rep : σ → List Nat → Prop} {C : Charset σ}

/-! ### the state after a chain of calls -/

/-- the options held by a specifier -/
def FloatSpec.options : FloatSpec → FloatFmt
  | .dflt => FloatFmt.dflt
  | .noPunct f => f
  | .full f => f

structure FStateOf (cs : List FloatCall) (v : FloatVal) : Prop where
  options : v.spec.options = floatOptions cs
  align : v.align.getD AlignFmt.dflt = ⟨fillOf (floatAlignCalls cs), alignOf (floatAlignCalls cs), widthOf (floatAlignCalls cs)⟩
  plain : ∀ f, v.spec = .noPunct f → f.punctuate = false

theorem floatOptions_append (cs : List FloatCall) (c : FloatCall) : floatOptions (cs ++ [c]) =
    ⟨c.precision?.getD (floatOptions cs).precision, c.pad0?.getD (floatOptions cs).pad0, c.nota?.getD (floatOptions cs).nota,
      c.sign?.getD (floatOptions cs).sign, c.showpoint?.getD (floatOptions cs).showpoint,
      c.punct?.getD (floatOptions cs).punctuate⟩ := by
  unfold floatOptions; simp only [last_append]

theorem floatAlignCalls_append (cs : List FloatCall) (c : FloatCall) : floatAlignCalls (cs ++ [c]) =
    floatAlignCalls cs ++ (match c.align? with | none => [] | some a => [a]) := by
  unfold floatAlignCalls
  rw [List.filterMap_append]
  cases h : c.align? <;> simp [List.filterMap_cons, h]

theorem fstep_state (cs : List FloatCall) (v : FloatVal) (c : FloatCall) (h : FStateOf cs v) :
    FStateOf (cs ++ [c]) (v.step c) := by
  obtain ⟨spec, al⟩ := v
  obtain ⟨ho, ha, hp⟩ := h
  dsimp only at ho ha hp
  constructor
  · rw [floatOptions_append, ← ho]
    cases spec <;> cases c <;>
      simp [FloatVal.step, FloatSpec.step, fstepDefault, fstepNoPunct, fstepFull, FloatSpec.options, FloatFmt.dflt,
        FloatCall.precision?, FloatCall.pad0?, FloatCall.nota?, FloatCall.sign?, FloatCall.showpoint?, FloatCall.punct?]
  · rw [floatAlignCalls_append]
    cases c <;> simp only [FloatCall.align?, FloatVal.step, List.append_nil] <;> try exact ha
    exact (alignStep_ok al _ _ ha).1
  · intro f hf
    cases spec <;> cases c <;>
      simp only [FloatVal.step, FloatSpec.step, fstepDefault, fstepNoPunct, fstepFull, reduceCtorEq, FloatSpec.noPunct.injEq] at hf <;>
      first | (subst hf; rfl) | (subst hf; have := hp _ rfl; exact this)

/-- after a chain of calls, the value holds the options given last -/
theorem float_chain_state (cs : List FloatCall) : FStateOf cs (floatChain cs) := by
  induction cs using List.reverseRecOn with
  | nil => exact ⟨rfl, rfl, by intro f h; cases h⟩
  | append_singleton cs c ih =>
    have : floatChain (cs ++ [c]) = (floatChain cs).step c := by simp [floatChain]
    rw [this]
    exact fstep_state cs _ c ih

/-! ### the items -/

theorem plainFloatItem_means (L : Lawful D Rep) (HC : C.Lawful D Rep) (B : Int) (unitBits : Nat) (lc : Lettercase) (T : FloatT)
    (bits : Nat) (f : FloatFmt) (a : AlignFmt) (lay : Layout) (hl : LayoutOf a lay) (hr : RoundOk [] false f T bits) :
    (plainFloatItem D C unitBits lc T bits f a).Means τ D Rep B
      (.ofColumns (floatText C.encodeChar lc 0x2E 0x2E 0x2C [] false f lay T bits) (floatWidth [] false f lay T bits)) := by
  have key : ∃ p pre, Printer.makePlain C toDecimal lc T bits f a = some (p, pre) ∧
      Prints τ D Rep (p.print D C unitBits) (floatText C.encodeChar lc 0x2E 0x2E 0x2C [] false f lay T bits) ∧
      pre.width = floatWidth [] false f lay T bits ∧
      pre.size = (floatText C.encodeChar lc 0x2E 0x2E 0x2C [] false f lay T bits).length := by
    unfold floatText floatWidth
    by_cases hfin : Float.expBits T bits = 2 ^ T.eSize - 1
    · simp only [hfin, if_true]
      exact Float.plain_special L HC toDecimal T bits (not_not.mpr hfin) lc f a lay hl unitBits
    · obtain ⟨hf, hc⟩ := hr.resolve_left hfin
      simp only [hfin, if_false]
      by_cases hh : f.nota = .hex
      · rw [if_pos hh] at hc
        simp only [hh, if_true]
        exact Float.plain_hex L HC toDecimal T bits hfin lc f hf hh a lay hl unitBits hc
      · rw [if_neg hh] at hc
        simp only [hh, if_false]
        exact Float.plain_finite L HC toDecimal T bits hfin (Float.decode_good hfin) lc f hf hh a lay hl unitBits hc
  obtain ⟨p, pre, e, h1, h2, h3⟩ := key
  have := fixed_means B _ _ h2 _ h3 h1
  unfold Item.Means plainFloatItem at *
  dsimp only
  rw [e]
  exact this

theorem punctFloatItem_means (L : Lawful D Rep) (HC : C.Lawful D Rep) (B : Int) (unitBits : Nat) (lc : Lettercase)
    (np10 np16 : Numpunct.Facet) {gs : List Nat} {rep : Bool} (hg : Valid gs rep) (hgr : np10.grouping = Numpunct.ctor2 (args gs rep))
    (T : FloatT) (bits : Nat) (f : FloatFmt) (a : AlignFmt) (lay : Layout) (hl : LayoutOf a lay)
    (hcast : f.punctuate = true → CastOk C unitBits np10.thousandsSep)
    (hr : RoundOk (usedGroups C np10 f gs rep).1 (usedGroups C np10 f gs rep).2 f T bits) :
    (punctFloatItem D C unitBits lc np10 np16 T bits f a).Means τ D Rep B
      (.ofColumns (floatText C.encodeChar lc (usedPoint np10 f) (usedPoint np16 f) (usedSep np10 f)
        (usedGroups C np10 f gs rep).1 (usedGroups C np10 f gs rep).2 f lay T bits)
        (floatWidth (usedGroups C np10 f gs rep).1 (usedGroups C np10 f gs rep).2 f lay T bits)) := by
  have key : ∃ p pre, Printer.makePunct C toDecimal lc np10 np16 T bits f a = some (p, pre) ∧
      Prints τ D Rep (p.print D C unitBits) (floatText C.encodeChar lc (usedPoint np10 f) (usedPoint np16 f) (usedSep np10 f)
        (usedGroups C np10 f gs rep).1 (usedGroups C np10 f gs rep).2 f lay T bits) ∧
      pre.width = floatWidth (usedGroups C np10 f gs rep).1 (usedGroups C np10 f gs rep).2 f lay T bits ∧
      pre.size = (floatText C.encodeChar lc (usedPoint np10 f) (usedPoint np16 f) (usedSep np10 f)
        (usedGroups C np10 f gs rep).1 (usedGroups C np10 f gs rep).2 f lay T bits).length := by
    unfold floatText floatWidth
    by_cases hfin : Float.expBits T bits = 2 ^ T.eSize - 1
    · simp only [hfin, if_true]
      exact Float.punct_special L HC toDecimal T bits (not_not.mpr hfin) lc np10 np16 f a lay hl unitBits
    · obtain ⟨hf, hc⟩ := hr.resolve_left hfin
      simp only [hfin, if_false]
      by_cases hh : f.nota = .hex
      · rw [if_pos hh] at hc
        simp only [hh, if_true]
        exact Float.punct_hex L HC toDecimal T bits hfin lc np10 np16 f hf hh a lay hl unitBits hc
      · rw [if_neg hh] at hc
        simp only [hh, if_false]
        exact Float.punct_finite L HC toDecimal T bits hfin (Float.decode_good hfin) lc np10 np16 hg hgr f hf hh a lay hl unitBits
          hcast hc
  obtain ⟨p, pre, e, h1, h2, h3⟩ := key
  have := fixed_means B _ _ h2 _ h3 h1
  unfold Item.Means punctFloatItem at *
  dsimp only
  rw [e]
  exact this

theorem bit_mul_le {b x y : Int} (hb : b = 0 ∨ b = 1) (hx : x ≤ y) (hy : 0 ≤ y) : b * x ≤ y := by
  rcases hb with rfl | rfl <;> omega

theorem b2i_bit (b : Bool) : b2i b = 0 ∨ b2i b = 1 := by cases b <;> simp [b2i]
theorem c2i_bit (q : Prop) [Decidable q] : Float.c2i q = 0 ∨ Float.c2i q = 1 := by unfold Float.c2i; split <;> simp

theorem fast_size_small (p : Fast) (hd : p.digcount ≤ 20) (h1 : -400 ≤ p.value.e10) (h2 : p.value.e10 ≤ 400) : p.size ≤ 2000 := by
  unfold Fast.size
  dsimp only
  have a1 := bit_mul_le (c2i_bit (p.value.e10 > 0)) h2 (by decide)
  have a2 := bit_mul_le (c2i_bit (p.value.e10 ≤ -(p.digcount : Int))) (show 2 - p.value.e10 - (p.digcount : Int) ≤ 402 by omega) (by decide)
  have a3 := c2i_bit (-(p.digcount : Int) < p.value.e10 ∧ p.value.e10 < 0)
  have a4 := c2i_bit ((p.digcount : Int) ≠ 1)
  have a5 := c2i_bit (p.value.e10 - 1 + (p.digcount : Int) > 99 ∨ p.value.e10 - 1 + (p.digcount : Int) < -99)
  have b1 := bit_mul_le (b2i_bit p.sci) (show 4 + Float.c2i ((p.digcount : Int) ≠ 1) + (p.digcount : Int) +
    Float.c2i (p.value.e10 - 1 + (p.digcount : Int) > 99 ∨ p.value.e10 - 1 + (p.digcount : Int) < -99) ≤ 900 by omega) (by decide)
  have b2 := bit_mul_le (b2i_bit (!p.sci)) (show (p.digcount : Int) + Float.c2i (p.value.e10 > 0) * p.value.e10 +
    Float.c2i (p.value.e10 ≤ -(p.digcount : Int)) * (2 - p.value.e10 - (p.digcount : Int)) +
    Float.c2i (-(p.digcount : Int) < p.value.e10 ∧ p.value.e10 < 0) ≤ 900 by omega) (by decide)
  have b3 := bit_mul_le (b2i_bit (!(p.value.infinity || p.value.nan))) (Int.add_le_add b1 b2) (by decide)
  have c1 := b2i_bit p.value.nan
  have c2 := b2i_bit p.value.infinity
  have c3 := b2i_bit p.value.negative
  omega

/-- the text of a number without format -/
theorem fast_text (HC : C.Lawful D Rep) (lc : Lettercase) (T : FloatT) (bits : Nat) :
    floatText C.encodeChar lc 0x2E 0x2E 0x2C [] false FloatFmt.dflt .none T bits =
      (if signBit T bits then [0x2D] else []) ++
        if Float.expBits T bits = 2 ^ T.eSize - 1 then Float.Spec.special lc (decide (manBits T bits ≠ 0))
        else number lc [0x2E] [] [] false false
          (shape [] false .general none false (decode toDecimal T bits).m10 (decode toDecimal T bits).e10) := by
  have hpt : C.encodeChar 0x2E = [0x2E] := HC.ascii _ (by decide)
  have hz : ∀ n : Nat, (-(n : Int)).toNat = 0 := fun n => by omega
  have hz' : ∀ n : Nat, ((0 : Int) - n).toNat = 0 := fun n => by omega
  unfold floatText
  have hnh : (FloatFmt.dflt).nota ≠ .hex := by decide
  by_cases hfin : Float.expBits T bits = 2 ^ T.eSize - 1
  · simp only [hfin, if_true]
    unfold specialText arranged Float.specialLayout Layout.none FloatFmt.dflt
    dsimp only
    simp only [Float.Spec.leader, times, hz']
    cases signBit T bits <;> simp [before, times]
  · simp only [hfin, hnh, if_false]
    unfold finite arranged Layout.none
    simp only [FloatFmt.dflt, hpt, Float.number_sep _ _ (C.encodeChar 0x2C), hz']
    simp only [Float.specNotation, Float.precision, if_true, Float.Spec.leader, times]
    cases signBit T bits <;> simp [before, times]

theorem number_lc (lc : Lettercase) (point : List Nat) (alt : Bool) (sh : Float.Spec.Shape) :
    (number lc point [] [] false alt sh).length = (number .lower point [] [] false alt sh).length := by
  unfold number
  cases sh.exp <;> simp [Float.Spec.expText]

theorem fast_width (T : FloatT) (bits : Nat) (lc : Lettercase) :
    floatWidth [] false FloatFmt.dflt .none T bits = ((if signBit T bits then [0x2D] else []) ++
        if Float.expBits T bits = 2 ^ T.eSize - 1 then Float.Spec.special lc (decide (manBits T bits ≠ 0))
        else number lc [0x2E] [] [] false false
          (shape [] false .general none false (decode toDecimal T bits).m10 (decode toDecimal T bits).e10)).length := by
  have hnh : (FloatFmt.dflt).nota ≠ .hex := by decide
  unfold floatWidth
  by_cases hfin : Float.expBits T bits = 2 ^ T.eSize - 1
  · simp only [hfin, if_true]
    rw [List.length_append, Float.special_length]
    unfold specialWidth arrangedWidth Float.specialLayout Layout.none FloatFmt.dflt Float.Spec.leaderColumns Float.Spec.leader
    cases signBit T bits <;> simp
  · simp only [hfin, hnh, if_false]
    rw [List.length_append, number_lc]
    unfold finiteWidth arrangedWidth Layout.none FloatFmt.dflt Float.Spec.leaderColumns Float.Spec.leader Float.Spec.columns
    rw [Float.number_sep]
    simp only [Float.specNotation, Float.precision, if_true]
    cases signBit T bits <;> simp

theorem fastItem_means (L : Lawful D Rep) (HC : C.Lawful D Rep) (B : Int) (lc : Lettercase) (T : FloatT) (bits : Nat) :
    (fastItem D lc T bits).Means τ D Rep B
      (.ofColumns (floatText C.encodeChar lc 0x2E 0x2E 0x2C [] false FloatFmt.dflt .none T bits)
        (floatWidth [] false FloatFmt.dflt .none T bits)) := by
  rw [fast_text HC, fast_width T bits lc]
  have key : Prints τ D Rep ((Fast.make (decode toDecimal T bits) lc).print D) ((if signBit T bits then [0x2D] else []) ++
        if Float.expBits T bits = 2 ^ T.eSize - 1 then Float.Spec.special lc (decide (manBits T bits ≠ 0))
        else number lc [0x2E] [] [] false false
          (shape [] false .general none false (decode toDecimal T bits).m10 (decode toDecimal T bits).e10)) ∧
      (Fast.make (decode toDecimal T bits) lc).size = ((if signBit T bits then [0x2D] else []) ++
        if Float.expBits T bits = 2 ^ T.eSize - 1 then Float.Spec.special lc (decide (manBits T bits ≠ 0))
        else number lc [0x2E] [] [] false false
          (shape [] false .general none false (decode toDecimal T bits).m10 (decode toDecimal T bits).e10)).length := by
    by_cases hfin : Float.expBits T bits = 2 ^ T.eSize - 1
    · simp only [hfin, if_true]
      exact Float.unformatted_special_exact L T bits (not_not.mpr hfin) lc
    · simp only [hfin, if_false]
      exact Float.unformatted_exact L T bits hfin lc
  have hsm : (Fast.make (decode toDecimal T bits) lc).size ≤ 2000 := by
    have hg : Float.GoodDec (decode toDecimal T bits).m10 (decode toDecimal T bits).e10 := by
      by_cases hfin : Float.expBits T bits = 2 ^ T.eSize - 1
      · have : (decode toDecimal T bits).m10 = 0 ∧ (decode toDecimal T bits).e10 = 0 := by
          unfold decode
          dsimp only
          split_ifs <;> simp
        rw [this.1, this.2]
        exact ⟨by decide, by decide, by decide, by decide, by decide⟩
      · exact Float.decode_good hfin
    refine fast_size_small _ ?_ hg.lo hg.hi
    show IntDigits.countDigits 10 8 (decode toDecimal T bits).m10 ≤ 20
    rw [Float.count_eq _ hg.lt64]
    have := hg.len
    omega
  obtain ⟨hpr, hsz⟩ := key
  generalize ((if signBit T bits then [0x2D] else []) ++
        if Float.expBits T bits = 2 ^ T.eSize - 1 then Float.Spec.special lc (decide (manBits T bits ≠ 0))
        else number lc [0x2E] [] [] false false
          (shape [] false .general none false (decode toDecimal T bits).m10 (decode toDecimal T bits).e10)) = t at *
  have hfm := fixed_means B t.length t.length rfl t.length rfl hpr
  refine ⟨hfm.1, hfm.2.1, hfm.2.2.1, ?_⟩
  intro p hp
  obtain ⟨p', pr, e1, e2, e3⟩ := hfm.2.2.2 p hp
  unfold fastItem
  dsimp only
  by_cases hr : p.hasRemaining = true ∨ p.size.isSome = true
  · rw [if_pos hr]
    have hw : Width.ofI16 (CInt.i16 (Fast.make (decode toDecimal T bits) lc).size) = Width.ofInt t.length := by
      rw [hsz] at hsm ⊢
      unfold Width.ofI16 Width.ofInt CInt.i16
      rw [if_neg (by omega), if_neg (by omega)]
      rw [show ((t.length : Int) + 32768) % 65536 - 32768 = t.length by omega]
    rw [hw, hsz, Int.toNat_natCast]
    unfold Print.fixed Print.addBoth at e1
    dsimp only at e1
    cases hadd : p.addWidth (Width.ofInt t.length) with
    | none => rw [hadd] at e1; cases e1
    | some q =>
      rw [hadd] at e1
      simp only [Option.map_some, Option.some.injEq, Prod.mk.injEq] at e1
      obtain ⟨e1, e4⟩ := e1
      exact ⟨_, _, rfl, hpr, e1 ▸ e3⟩
  · rw [if_neg hr]
    rw [not_or] at hr
    refine ⟨_, _, rfl, hpr, ?_, id, ?_⟩
    · cases hs : p.size with
      | none => rfl
      | some n => rw [hs] at hr; simp at hr
    · intro a ha
      have hlim : a.limit ≤ a.width := by
        have h := hr.1
        unfold Pre.hasRemaining at h
        rw [ha] at h
        simp only [Print.Acc.hasRemaining, decide_eq_true_eq] at h
        omega
      have h0 := hfm.1
      have h1 := hfm.2.2.1
      exact ⟨a, ha, rfl, by omega, by omega, by omega, by omega, by omega⟩

/-! ### the chains -/

/-- C68: the number printed is the one with the options given last, and its width and size are known beforehand. What is
missing is false of the code: a `double` without format has the letter case for `float` (`fast_lettercase_wrong`); the roundings
that `RoundOk` excludes, and separators of single-byte charsets (`Float.sbc_separator_wrong`). -/
theorem float_chain_exact_partial (L : Lawful D Rep) (HC : C.Lawful D Rep) (B : Int) (unitBits : Nat) (cs : List FloatCall)
    (f : FloatFmt) (hf : f = floatOptions cs)
    (lay : Layout) (hfill : lay.fill = fillOf (floatAlignCalls cs)) (halign : lay.align = alignOf (floatAlignCalls cs))
    (hwid : CInt.InI32 (widthOf (floatAlignCalls cs))) (hcol : WidthSpec.IsRound (widthOf (floatAlignCalls cs)) lay.columns)
    (F : FloatFacets) (gs : List Nat) (rep : Bool) (hg : Valid gs rep) (hgr : F.np10.grouping = Numpunct.ctor2 (args gs rep))
    (hcast : f.punctuate = true → CastOk C unitBits F.np10.thousandsSep)
    (T : FloatT) (bits : Nat) (hlc : f = ⟨-1, 0, .general, .negativeOnly, false, false⟩ → F.lc T = F.lc .float)
    (hr : RoundOk (usedGroups C F.np10 f gs rep).1 (usedGroups C F.np10 f gs rep).2 f T bits) :
    ((floatChain cs).item D C unitBits F T bits).Means τ D Rep B
      (.ofColumns (floatText C.encodeChar (F.lc T) (usedPoint F.np10 f) (usedPoint F.np16 f) (usedSep F.np10 f)
        (usedGroups C F.np10 f gs rep).1 (usedGroups C F.np10 f gs rep).2 f lay T bits)
        (floatWidth (usedGroups C F.np10 f gs rep).1 (usedGroups C F.np10 f gs rep).2 f lay T bits)) := by
  obtain ⟨ho, ha, hp⟩ := float_chain_state cs
  generalize floatChain cs = v at *
  obtain ⟨spec, al⟩ := v
  dsimp only at ho ha hp
  have hl : LayoutOf (al.getD AlignFmt.dflt) lay := by rw [ha]; exact ⟨hfill, halign, hwid, hcol⟩
  rw [← hf] at ho
  have plain : f.punctuate = false → usedGroups C F.np10 f gs rep = ([], false) ∧ usedPoint F.np10 f = 0x2E ∧
      usedPoint F.np16 f = 0x2E ∧ usedSep F.np10 f = 0x2C := by
    intro h
    unfold usedGroups usedPoint usedSep
    simp [h]
  cases spec with
  | full g =>
    obtain rfl : g = f := ho
    exact punctFloatItem_means L HC B unitBits _ _ _ hg hgr T bits g _ lay hl hcast hr
  | noPunct g =>
    obtain rfl : g = f := ho
    obtain ⟨h1, h2, h3, h4⟩ := plain (hp g rfl)
    rw [h1] at hr
    rw [h1, h2, h3, h4]
    exact plainFloatItem_means L HC B unitBits _ T bits g _ lay hl hr
  | dflt =>
    obtain rfl : FloatFmt.dflt = f := ho
    obtain ⟨h1, h2, h3, h4⟩ := plain rfl
    rw [h1] at hr
    rw [h1, h2, h3, h4]
    cases al with
    | some a => exact plainFloatItem_means L HC B unitBits _ T bits _ a lay hl hr
    | none =>
      have : lay = Layout.none := by rw [hl.columns]; rfl
      rw [this, hlc rfl]
      exact fastItem_means L HC B _ T bits

/-- `+strf::fixed(-6.25).p(1).fill(U'*') ^ 10` -/
example : floatOptions [.fixed, .p 1, .plus, .align (.fill 0x2A), .align (.center 655360)] = ⟨1, 0, .fixed, .positiveAlso, false, false⟩ ∧
    RoundOk [] false ⟨1, 0, .fixed, .positiveAlso, false, false⟩ .double 0xC019000000000000 ∧
    floatText (Utf.encodeChar .utf8) .lower 0x2E 0x2E 0x2C [] false ⟨1, 0, .fixed, .positiveAlso, false, false⟩
      ⟨0x2A, .center, 10⟩ .double 0xC019000000000000 = "***-6.2***".toList.map Char.toNat := by
  refine ⟨by decide, .inr ⟨⟨by decide, by decide⟩, ?_⟩, by decide +kernel⟩
  rw [if_neg (by decide)]
  decide +kernel

/-- C68: the order in which options are given does not matter: two chains that ask for the same options print the same. -/
theorem float_chain_order_partial (L : Lawful D Rep) (HC : C.Lawful D Rep) (B : Int) (unitBits : Nat) (cs ds : List FloatCall)
    (same : floatOptions cs = floatOptions ds) (samef : fillOf (floatAlignCalls cs) = fillOf (floatAlignCalls ds))
    (samea : alignOf (floatAlignCalls cs) = alignOf (floatAlignCalls ds))
    (samew : widthOf (floatAlignCalls cs) = widthOf (floatAlignCalls ds)) (hwid : CInt.InI32 (widthOf (floatAlignCalls cs)))
    (F : FloatFacets) (gs : List Nat) (rep : Bool) (hg : Valid gs rep) (hgr : F.np10.grouping = Numpunct.ctor2 (args gs rep))
    (hcast : (floatOptions cs).punctuate = true → CastOk C unitBits F.np10.thousandsSep)
    (T : FloatT) (bits : Nat)
    (hlc : floatOptions cs = ⟨-1, 0, .general, .negativeOnly, false, false⟩ → F.lc T = F.lc .float)
    (hr : RoundOk (usedGroups C F.np10 (floatOptions cs) gs rep).1 (usedGroups C F.np10 (floatOptions cs) gs rep).2
      (floatOptions cs) T bits) :
    ∃ m, ((floatChain cs).item D C unitBits F T bits).Means τ D Rep B m ∧
      ((floatChain ds).item D C unitBits F T bits).Means τ D Rep B m := by
  refine ⟨_, float_chain_exact_partial L HC B unitBits cs _ rfl
    ⟨fillOf (floatAlignCalls cs), alignOf (floatAlignCalls cs), Width.round (widthOf (floatAlignCalls cs))⟩ rfl rfl hwid
    (Width.round_correct _ hwid) F gs rep hg hgr hcast T bits hlc hr, ?_⟩
  exact float_chain_exact_partial L HC B unitBits ds _ same _ samef samea (samew ▸ hwid)
    (samew ▸ Width.round_correct _ hwid) F gs rep hg hgr hcast T bits hlc hr

/-- `pad0(x, 8).sci().p(2)` and `sci(x).p(2).pad0(8)` -/
example : floatOptions [.pad0 8, .sci, .p 2] = floatOptions [.sci, .p 2, .pad0 8] := by decide

/-- C68 is false for a `double` without format if the letter case is constrained: the facet for `float` is used. The
facets are upper case for `double`, and lower case for `float`; 1e100 is printed as `1e+100`, and `1E+100` if aligned (to 1
column). -/
theorem fast_lettercase_wrong :
    ([[], [.align (.right 65536)]].map fun cs : List FloatCall => (((floatChain cs).item Dest.Maker.dest (Print.utf Dest.Maker.dest .utf8) 8
        ⟨fun T => if T = .double then .upper else .lower, ⟨0, 0x2E, 0x2C⟩, ⟨0, 0x2E, 0x2C⟩⟩ .double 0x54B249AD2594C37D).make .nothing).bind
        fun r => (r.2 (Dest.Maker.init (List.replicate 64 0))).map fun s => (Dest.Maker.finishE true s).2) =
      [some (some ("1e+100".toList.map Char.toNat)), some (some ("1E+100".toList.map Char.toNat))] := by
  decide +kernel

end Strf.Format

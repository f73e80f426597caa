import Verif.Format.Model
import Mathlib.Data.List.Induction
/-!
# C66: chains of format functions of integers
-/
namespace Strf.Format
open Strf.IntPrinter.Spec Strf.IntDigits.Spec
open Strf.IntPrinter (AlignFmt Punct Plain dynMake dynPrint LayoutOf SepOk)
open Strf.Print (Item Charset Meaning fixed_means)
open Strf.Dest (Dest Lawful)
open Strf.Numpunct.Spec (Valid args)

variable {σ : Type} {D : Dest Nat σ} {Rep : σ → List Nat → Prop} {C : Charset σ}

/-! ### conditions on the chain -/

/-- the base is given at run time -/
def IntCall.isDynamic : IntCall → Bool
  | .base _ => true
  | .set _ _ => true
  | _ => false

/-- precision, zeros or punctuation -/
def IntCall.isPad : IntCall → Bool
  | .p _ => true
  | .pad0 _ => true
  | .punct => true
  | _ => false

/-- which calls bring an alignment format, or take it away -/
def AlignCall.present? : AlignCall → Option Bool
  | .clear => some false
  | _ => some true

/-- there is an alignment format -/
def aligned (cs : List IntCall) : Bool := last AlignCall.present? false (alignCalls cs)

/-- `base(b)` after these calls loses nothing: either the base was already given at run time, or there was no `p`, `pad0`
or `punct`, or all options other than base and punctuation have the default value -/
def BaseKeeps (before : List IntCall) : Prop :=
  (∃ c ∈ before, c.isDynamic = true) ∨ (∀ c ∈ before, c.isPad = false) ∨
  ∃ b, intOptions before = ⟨b, 0, 0, .negativeOnly, false⟩

/-- no call of `base(b)` loses anything -/
def KeepsOptions (cs : List IntCall) : Prop := ∀ before b after, cs = before ++ .base b :: after → BaseKeeps before

/-- a decimal integer with at most a sign format, and without alignment format, as in `+dec(x)`; but not `dec(x)` alone -/
def SignOnly (cs : List IntCall) : Prop :=
  (intOptions cs).base = 10 ∧ aligned cs = false ∧ (∀ c ∈ cs, c.isPad = false ∧ c.isDynamic = false) ∧
  ∃ c ∈ cs, c = .hex ∨ c = .oct ∨ c = .bin ∨ c = .plus ∨ c = .fillSign

/-- the base that is used: if it is none of 2, 8 and 16, it is 10 -/
def usedBase (b : Nat) : Nat := if b = 2 ∨ b = 8 ∨ b = 16 then b else 10

/-- the options in use -/
def usedOptions (cs : List IntCall) : Fmt := { intOptions cs with base := usedBase (intOptions cs).base }

/-! ### the state after a chain of calls -/

theorem steps_append (v : IntFmt) (cs ds : List IntCall) : v.steps (cs ++ ds) = (v.steps cs).bind (·.steps ds) := by
  induction cs generalizing v with
  | nil => rfl
  | cons c cs ih =>
    simp only [List.cons_append, IntFmt.steps]
    cases v.step c with
    | none => rfl
    | some w => simp [ih]

theorem chain_append (cs : List IntCall) (c : IntCall) : intChain (cs ++ [c]) = (intChain cs).bind (·.step c) := by
  unfold intChain
  rw [steps_append]
  cases IntFmt.init.steps cs with
  | none => rfl
  | some v => simp [IntFmt.steps]

/-- the options in the data of a specifier -/
def IntSpec.options : IntSpec → Fmt
  | .dflt => ⟨10, 0, 0, .negativeOnly, false⟩
  | .noPad0 b s sb => ⟨b, 0, 0, s, sb⟩
  | .static b _ pr pd s sb => ⟨b, pr, pd, s, sb⟩
  | .dynamic b pr pd s sb _ => ⟨b, pr, pd, s, sb⟩

def IntSpec.punct : IntSpec → Bool
  | .dflt => false
  | .noPad0 .. => false
  | .static _ p .. => p
  | .dynamic _ _ _ _ _ p => p

/-- which specifier a chain of calls leads to -/
def ClassOf (cs : List IntCall) (s : IntSpec) : Prop :=
  match s with
  | .dflt => (∀ c ∈ cs, c.isPad = false ∧ c.isDynamic = false) ∧ ¬ ∃ c ∈ cs, c = .hex ∨ c = .oct ∨ c = .bin ∨ c = .plus ∨ c = .fillSign
  | .noPad0 b .. => (∀ c ∈ cs, c.isPad = false ∧ c.isDynamic = false) ∧ (∃ c ∈ cs, c = .hex ∨ c = .oct ∨ c = .bin ∨ c = .plus ∨ c = .fillSign) ∧ IntDigits.Base b
  | .static b .. => (∀ c ∈ cs, c.isDynamic = false) ∧ (∃ c ∈ cs, c.isPad = true) ∧ IntDigits.Base b
  | .dynamic .. => ∃ c ∈ cs, c.isDynamic = true

structure StateOf (cs : List IntCall) (v : IntFmt) : Prop where
  cls : ClassOf cs v.spec
  options : v.spec.options = intOptions cs
  punct : v.spec.punct = punctuated cs
  align : v.align.getD AlignFmt.dflt = ⟨fillOf (alignCalls cs), alignOf (alignCalls cs), widthOf (alignCalls cs)⟩
  aligned : v.align.isSome = aligned cs

theorem options_append (cs : List IntCall) (c : IntCall) : intOptions (cs ++ [c]) =
    ⟨c.base?.getD (intOptions cs).base, c.precision?.getD (intOptions cs).precision, c.pad0?.getD (intOptions cs).pad0,
      c.sign?.getD (intOptions cs).sign, c.showbase?.getD (intOptions cs).showbase⟩ := by
  simp only [intOptions, last_append]

theorem punctuated_append (cs : List IntCall) (c : IntCall) : punctuated (cs ++ [c]) = c.punct?.getD (punctuated cs) :=
  last_append _ _ _ _

theorem alignCalls_append (cs : List IntCall) (c : IntCall) : alignCalls (cs ++ [c]) =
    match c.align? with | some a => alignCalls cs ++ [a] | none => alignCalls cs := by
  unfold alignCalls
  rw [List.filterMap_append]
  cases c <;> simp [IntCall.align?]

theorem alignStep_ok (d : Option AlignFmt) (a : AlignCall) (as : List AlignCall)
    (h : d.getD AlignFmt.dflt = ⟨fillOf as, alignOf as, widthOf as⟩) :
    (alignStep d a).getD AlignFmt.dflt = ⟨fillOf (as ++ [a]), alignOf (as ++ [a]), widthOf (as ++ [a])⟩ ∧
    (alignStep d a).isSome = last AlignCall.present? false (as ++ [a]) := by
  unfold fillOf alignOf widthOf at *
  simp only [last_append]
  cases d with
  | none =>
    simp only [Option.getD_none, AlignFmt.dflt, AlignFmt.mk.injEq] at h
    obtain ⟨h1, h2, h3⟩ := h
    cases a <;> simp [alignStep, AlignCall.fill?, AlignCall.width?, AlignCall.align?, AlignCall.present?, AlignFmt.dflt,
      ← h1, ← h2, ← h3]
  | some d =>
    simp only [Option.getD_some] at h
    subst h
    cases a <;> simp [alignStep, AlignCall.fill?, AlignCall.width?, AlignCall.align?, AlignCall.present?, AlignFmt.dflt]

theorem base16 : IntDigits.Base 16 := by simp [IntDigits.Base]
theorem base10 : IntDigits.Base 10 := by simp [IntDigits.Base]
theorem base8 : IntDigits.Base 8 := by simp [IntDigits.Base]
theorem base2 : IntDigits.Base 2 := by simp [IntDigits.Base]

theorem init_state : StateOf [] IntFmt.init := by
  refine ⟨?_, rfl, rfl, rfl, rfl⟩
  simp [ClassOf, IntFmt.init]

theorem aligned_append (cs : List IntCall) (c : IntCall) (h : c.align? = none) : aligned (cs ++ [c]) = aligned cs := by
  unfold aligned; rw [alignCalls_append, h]

/-- the specifier alone -/
theorem spec_state (cs : List IntCall) (s s' : IntSpec) (c : IntCall) (hcl : ClassOf cs s)
    (ho : s.options = intOptions cs) (hp : s.punct = punctuated cs) (hk : ∀ b, c = .base b → BaseKeeps cs)
    (e : s.step c = some s') :
    ClassOf (cs ++ [c]) s' ∧ s'.options = intOptions (cs ++ [c]) ∧ s'.punct = punctuated (cs ++ [c]) := by
  rw [options_append, punctuated_append, ← ho, ← hp]
  cases s with
  | dflt =>
    cases c <;> simp only [IntSpec.step, stepDefault, Option.some.injEq, reduceCtorEq] at e <;> subst e <;>
      (refine ⟨?_, rfl, rfl⟩) <;> simp only [ClassOf] at hcl ⊢ <;>
      simp_all [IntCall.isPad, IntCall.isDynamic, base16, base10, base8, base2, or_imp, forall_and]
  | noPad0 b sg sb =>
    cases c <;> simp only [IntSpec.step, stepNoPad0, Option.some.injEq, Option.ite_none_right_eq_some, Option.ite_none_left_eq_some] at e <;>
      (try replace e := e.2) <;> subst e <;>
      (refine ⟨?_, rfl, rfl⟩) <;> simp only [ClassOf] at hcl ⊢ <;>
      simp_all [IntCall.isPad, IntCall.isDynamic, base16, base10, base8, base2, or_imp, forall_and]
  | static b pu pr pd sg sb =>
    cases c <;> simp only [IntSpec.step, stepStatic, Option.some.injEq, Option.ite_none_right_eq_some, Option.ite_none_left_eq_some] at e <;>
      (try replace e := e.2) <;> subst e
    case base n =>
      refine ⟨?_, ?_, rfl⟩
      · simp only [ClassOf]; exact ⟨.base n, by simp, rfl⟩
      · simp only [ClassOf] at hcl
        obtain ⟨h1, ⟨c, hc, hcp⟩, _⟩ := hcl
        rcases hk n rfl with ⟨c', hc', hd'⟩ | h | ⟨b', h⟩
        · rw [h1 c' hc'] at hd'; cases hd'
        · rw [h c hc] at hcp; cases hcp
        · rw [h] at ho
          simp only [IntSpec.options, Fmt.mk.injEq] at ho
          obtain ⟨_, rfl, rfl, rfl, rfl⟩ := ho
          rfl
    all_goals
      (refine ⟨?_, rfl, rfl⟩) <;> simp only [ClassOf] at hcl ⊢ <;>
      simp_all [IntCall.isPad, IntCall.isDynamic, base16, base10, base8, base2, or_imp, forall_and]
  | dynamic b pr pd sg sb pu =>
    cases c <;> simp only [IntSpec.step, stepDynamic, Option.some.injEq, reduceCtorEq] at e <;> subst e <;>
      (refine ⟨?_, rfl, rfl⟩) <;> simp only [ClassOf] at hcl ⊢ <;>
      (obtain ⟨c, hc, hd⟩ := hcl; exact ⟨c, by simp [hc], hd⟩)

theorem spec_align (s : IntSpec) (a : AlignCall) : s.step (.align a) = some s := by
  cases s <;> rfl

theorem step_state (cs : List IntCall) (v v' : IntFmt) (c : IntCall) (h : StateOf cs v)
    (hk : ∀ b, c = .base b → BaseKeeps cs) (e : v.step c = some v') : StateOf (cs ++ [c]) v' := by
  by_cases ha : ∃ a, c = .align a
  · obtain ⟨a, rfl⟩ := ha
    obtain ⟨h1, h2⟩ := alignStep_ok v.align a (alignCalls cs) h.align
    have hv : v' = ⟨v.spec, alignStep v.align a⟩ := by
      unfold IntFmt.step at e
      dsimp only at e
      split at e
      · split at e
        · cases e
        · cases e; rfl
      · cases e; rfl
    subst hv
    obtain ⟨g1, g2, g3⟩ := spec_state cs v.spec v.spec (.align a) h.cls h.options h.punct (fun b hb => by cases hb)
      (spec_align _ _)
    refine ⟨g1, g2, g3, ?_, ?_⟩
    · rw [alignCalls_append]; exact h1
    · unfold aligned; rw [alignCalls_append]; exact h2
  · have hal : c.align? = none := by
      cases c <;> first | rfl | exact absurd ⟨_, rfl⟩ ha
    have he : (v.spec.step c).map (fun s => (⟨s, v.align⟩ : IntFmt)) = some v' := by
      rw [← e]; cases c <;> first | rfl | exact absurd ⟨_, rfl⟩ ha
    cases hs : v.spec.step c with
    | none => rw [hs] at he; cases he
    | some s =>
      rw [hs] at he; cases he
      obtain ⟨g1, g2, g3⟩ := spec_state cs v.spec s c h.cls h.options h.punct hk hs
      refine ⟨g1, g2, g3, ?_, ?_⟩
      · rw [alignCalls_append, hal]; exact h.align
      · rw [aligned_append _ _ hal]; exact h.aligned

theorem chain_state (cs : List IntCall) : ∀ v, intChain cs = some v → KeepsOptions cs → StateOf cs v := by
  induction cs using List.reverseRecOn with
  | nil =>
    intro v e _
    cases e
    exact init_state
  | append_singleton cs c ih =>
    intro v' e hk
    rw [chain_append] at e
    cases hc : intChain cs with
    | none => rw [hc] at e; cases e
    | some v =>
      rw [hc] at e
      have hk' : KeepsOptions cs := by
        intro pre b post hp
        exact hk pre b (post ++ [c]) (by rw [hp]; simp)
      exact step_state cs v v' c (ih v hc hk') (fun b hb => hk cs b [] (by rw [hb])) e

/-! ### what is printed -/

theorem layout_dflt : LayoutOf AlignFmt.dflt Layout.none := by
  refine ⟨rfl, rfl, by decide, ?_⟩
  exact Width.round_correct 0 (by decide)

theorem plainIntItem_means (L : Lawful D Rep) (B : Int) (enc : Nat → List Nat) (lc : Lettercase) (base : Nat)
    (hb : IntDigits.Base base) (h10 : base ≠ 10) (sign : Showsign) (showbase : Bool) (x : IntVal) (hx : x.Ok) :
    (plainIntItem D lc base sign showbase x).Means τ D Rep B
      (.ofColumns (formatted enc lc [] [] false ⟨base, 0, 0, sign, showbase⟩ .none x)
        (width [] false ⟨base, 0, 0, sign, showbase⟩ .none x)) := by
  obtain ⟨r, e, h1, h2, h3⟩ := IntPrinter.plain_int_exact L enc base hb h10 sign showbase lc x hx
  unfold plainIntItem
  rw [e]
  exact fixed_means B _ _ h2 _ h3 h1

theorem dynIntItem_means (L : Lawful D Rep) (HC : C.Lawful D Rep) (B : Int) (fmt : Fmt) (hp : fmt.precision ≤ 2147483582)
    (h0 : fmt.pad0 ≤ 2147483647) (punctuate : Bool) (a : AlignFmt) (lay : Layout) (hl : LayoutOf a lay) (lc : Lettercase)
    (facet : Nat → Punct) (gs : List Nat) (rep : Bool) (hg : Valid gs rep)
    (hgp : if punctuate then (facet (usedBase fmt.base)).grouping = Numpunct.ctor2 (args gs rep) else gs = [] ∧ rep = false)
    (x : IntVal) (hx : x.Ok)
    (hs : SepOk C (facet (usedBase fmt.base)).sep (groups gs rep { fmt with base := usedBase fmt.base } x).length)
    (h2 : usedBase fmt.base ≠ 2 ∨ (C.encodeChar (facet (usedBase fmt.base)).sep).length ≠ 1 ∨
      (groups gs rep { fmt with base := usedBase fmt.base } x).length = 1) :
    (dynIntItem D C lc fmt punctuate a facet x).Means τ D Rep B
      (.ofColumns (formatted C.encodeChar lc (C.encodeChar (facet (usedBase fmt.base)).sep) gs rep
          { fmt with base := usedBase fmt.base } lay x) (width gs rep { fmt with base := usedBase fmt.base } lay x)) := by
  obtain ⟨r, e, h1, h2, h3⟩ := IntPrinter.dyn_int_exact_partial L HC fmt hp h0 (usedBase fmt.base) rfl punctuate a lay hl lc
    facet gs rep hg hgp x hx hs h2
  unfold dynIntItem
  rw [e]
  exact fixed_means B _ _ h2 _ h3 h1

/-- without punctuation the separator does not matter -/
theorem formatted_sep (enc : Nat → List Nat) (lc : Lettercase) (sep sep' : List Nat) (fmt : Fmt) (lay : Layout) (x : IntVal) :
    formatted enc lc sep [] false fmt lay x = formatted enc lc sep' [] false fmt lay x := by
  unfold formatted
  dsimp only
  rw [IntPrinter.groups_none, IntPrinter.grouped_one _ _ _ (IntPrinter.digits_length_lc _ _ _ _),
    IntPrinter.grouped_one _ _ _ (IntPrinter.digits_length_lc _ _ _ _)]

theorem usedBase_of {b : Nat} (h : IntDigits.Base b) : usedBase b = b := by
  unfold usedBase; unfold IntDigits.Base at h; split <;> omega

/-- C66: the integer printed is the one formatted with the options given last, and its width and size are known
beforehand. What is missing is false of the code: `base(b)` after `p`, `pad0` or `punct` loses options
(`base_loses_options_wrong`); a decimal integer with a sign format only is stored without room (`IntPrinter.plain_dec_wrong`);
precisions near INT_MAX overflow (`IntPrinter.precision_overflow_wrong`); invalid separators
(`IntPrinter.invalid_separator_wrong`) and punctuated binary numbers (`IntPrinter.bin_punct_wrong`). -/
theorem int_chain_exact_partial (L : Lawful D Rep) (HC : C.Lawful D Rep) (B : Int) (cs : List IntCall) (v : IntFmt)
    (hv : intChain cs = some v) (hk : KeepsOptions cs) (hd : ¬ SignOnly cs)
    (hp : (intOptions cs).precision ≤ 2147483582) (h0 : (intOptions cs).pad0 ≤ 2147483647)
    (lay : Layout) (hfill : lay.fill = fillOf (alignCalls cs)) (halign : lay.align = alignOf (alignCalls cs))
    (hwid : CInt.InI32 (widthOf (alignCalls cs))) (hcol : WidthSpec.IsRound (widthOf (alignCalls cs)) lay.columns)
    (lc : Lettercase) (facet : Nat → Punct) (gs : List Nat) (rep : Bool) (hg : Valid gs rep)
    (hgp : if punctuated cs then (facet (usedOptions cs).base).grouping = Numpunct.ctor2 (args gs rep)
      else gs = [] ∧ rep = false)
    (x : IntVal) (hx : x.Ok)
    (hs : SepOk C (facet (usedOptions cs).base).sep (groups gs rep (usedOptions cs) x).length)
    (h2 : (usedOptions cs).base ≠ 2 ∨ (C.encodeChar (facet (usedOptions cs).base).sep).length ≠ 1 ∨
      (groups gs rep (usedOptions cs) x).length = 1) :
    (v.item D C lc facet x).Means τ D Rep B
      (.ofColumns (formatted C.encodeChar lc (C.encodeChar (facet (usedOptions cs).base).sep) gs rep (usedOptions cs) lay x)
        (width gs rep (usedOptions cs) lay x)) := by
  obtain ⟨hcl, ho, hpu, hal, hsome⟩ := chain_state cs v hv hk
  have hlay : LayoutOf (v.align.getD AlignFmt.dflt) lay := by rw [hal]; exact ⟨hfill, halign, hwid, hcol⟩
  obtain ⟨spec, al⟩ := v
  dsimp only at hcl ho hpu hal hsome hlay ⊢
  have hnone : al = none → lay = Layout.none := by
    rintro rfl
    rw [hlay.columns]
    rfl
  unfold usedOptions at hgp hs h2 ⊢
  rw [← ho] at hp h0 hgp hs h2 ⊢
  rw [← hpu] at hgp
  have nosep : spec.punct = false → gs = [] ∧ rep = false := by
    intro h; rw [h] at hgp; exact hgp
  cases spec with
  | dflt =>
    obtain ⟨rfl, rfl⟩ := nosep rfl
    rw [formatted_sep _ _ _ []]
    cases al with
    | none => rw [hnone rfl]; exact Print.intItem_means L B C.encodeChar lc x hx
    | some a => exact Print.alignedIntItem_means L HC B lc a lay hlay x hx
  | noPad0 b sg sb =>
    obtain ⟨rfl, rfl⟩ := nosep rfl
    obtain ⟨hc1, hc2, hb⟩ := hcl
    rw [formatted_sep _ _ _ []]
    simp only [IntSpec.options] at hp h0 ⊢
    rw [usedBase_of hb]
    cases al with
    | none =>
      rw [hnone rfl]
      refine plainIntItem_means L B C.encodeChar lc b hb ?_ sg sb x hx
      rintro rfl
      exact hd ⟨by rw [← ho]; rfl, hsome.symm, hc1, hc2⟩
    | some a => exact Print.fmtIntItem_means L HC B _ ⟨hb, hp, h0⟩ (some a) lay hlay lc x hx
  | static b pu pr pd sg sb =>
    obtain ⟨_, _, hb⟩ := hcl
    simp only [IntSpec.options] at hp h0 hgp hs h2 ⊢
    rw [usedBase_of hb] at *
    cases pu with
    | false =>
      obtain ⟨rfl, rfl⟩ := nosep rfl
      rw [formatted_sep _ _ _ []]
      refine Print.fmtIntItem_means L HC B _ ⟨hb, hp, h0⟩ al lay ?_ lc x hx
      cases al with
      | none => exact hnone rfl
      | some a => exact hlay
    | true =>
      simp only [IntSpec.punct, if_true] at hgp
      have := Print.punctIntItem_means (τ := τ) L HC B ⟨b, pr, pd, sg, sb⟩ ⟨hb, hp, h0⟩ (al.getD AlignFmt.dflt) lay hlay lc gs rep hg
        (facet b).sep x hx hs h2
      rw [← hgp] at this
      exact this
  | dynamic b pr pd sg sb pu =>
    exact dynIntItem_means L HC B ⟨b, pr, pd, sg, sb⟩ hp h0 pu (al.getD AlignFmt.dflt) lay hlay lc facet gs rep hg hgp x hx hs h2

/-- `*strf::hex(255).p(4).fill(U'.') > 10`, and `strf::punct(1234567).hex().dec() < 12`: the hypotheses are met. -/
example : (intChain [.hex, .star, .p 4, .align (.fill 0x2E), .align (.right (10 * 65536))]).isSome = true ∧
    KeepsOptions [.hex, .star, .p 4, .align (.fill 0x2E), .align (.right (10 * 65536))] ∧
    ¬ SignOnly [.hex, .star, .p 4, .align (.fill 0x2E), .align (.right (10 * 65536))] ∧
    formatted (Utf.encodeChar .utf8) .lower [] [] false
      (usedOptions [.hex, .star, .p 4, .align (.fill 0x2E), .align (.right (10 * 65536))]) ⟨0x2E, .right, 10⟩
      ⟨true, 4, 255⟩ = "....0x00ff".toList.map Char.toNat := by
  refine ⟨by decide, ?_, ?_, by decide +kernel⟩
  · intro pre b post h
    have : IntCall.base b ∈ [IntCall.hex, .star, .p 4, .align (.fill 0x2E), .align (.right (10 * 65536))] := by rw [h]; simp
    simp at this
  · intro h
    have := h.1
    revert this
    decide

/-- a chain with `base` that is covered: `strf::hex(x).base(8).pad0(5)` -/
example : (intChain [.hex, .base 8, .pad0 5]).isSome = true ∧ KeepsOptions [.hex, .base 8, .pad0 5] ∧
    ¬ SignOnly [.hex, .base 8, .pad0 5] := by
  refine ⟨by decide, ?_, ?_⟩
  · intro pre b post h
    refine .inr (.inl ?_)
    rcases pre with _ | ⟨c, _ | ⟨d, _ | ⟨e, pre⟩⟩⟩ <;> simp at h
    · obtain ⟨rfl, _⟩ := h; decide
  · intro h; have := h.1; revert this; decide

/-- C66: the printed integer depends on the options given last only: two chains that end up with the same options print
the same, with the same width and size. (Hypotheses as in `int_chain_exact_partial`.) -/
theorem int_chain_order_partial (L : Lawful D Rep) (HC : C.Lawful D Rep) (B : Int) (cs ds : List IntCall) (v w : IntFmt)
    (hv : intChain cs = some v) (hw : intChain ds = some w) (hkc : KeepsOptions cs) (hkd : KeepsOptions ds)
    (hdc : ¬ SignOnly cs) (hdd : ¬ SignOnly ds) (same : intOptions cs = intOptions ds)
    (samep : punctuated cs = punctuated ds) (samef : fillOf (alignCalls cs) = fillOf (alignCalls ds))
    (samea : alignOf (alignCalls cs) = alignOf (alignCalls ds))
    (samew : widthOf (alignCalls cs) = widthOf (alignCalls ds))
    (hp : (intOptions cs).precision ≤ 2147483582) (h0 : (intOptions cs).pad0 ≤ 2147483647)
    (hwid : CInt.InI32 (widthOf (alignCalls cs))) (lc : Lettercase) (facet : Nat → Punct) (gs : List Nat) (rep : Bool)
    (hg : Valid gs rep)
    (hgp : if punctuated cs then (facet (usedOptions cs).base).grouping = Numpunct.ctor2 (args gs rep)
      else gs = [] ∧ rep = false)
    (x : IntVal) (hx : x.Ok)
    (hs : SepOk C (facet (usedOptions cs).base).sep (groups gs rep (usedOptions cs) x).length)
    (h2 : (usedOptions cs).base ≠ 2 ∨ (C.encodeChar (facet (usedOptions cs).base).sep).length ≠ 1 ∨
      (groups gs rep (usedOptions cs) x).length = 1) :
    ∃ m, (v.item D C lc facet x).Means τ D Rep B m ∧ (w.item D C lc facet x).Means τ D Rep B m := by
  have hu : usedOptions cs = usedOptions ds := by unfold usedOptions; rw [same]
  refine ⟨_, int_chain_exact_partial L HC B cs v hv hkc hdc hp h0
    ⟨fillOf (alignCalls cs), alignOf (alignCalls cs), Width.round (widthOf (alignCalls cs))⟩ rfl rfl hwid
    (Width.round_correct _ hwid) lc facet gs rep hg hgp x hx hs h2, ?_⟩
  rw [hu] at hgp hs h2 ⊢
  exact int_chain_exact_partial L HC B ds w hw hkd hdd (same ▸ hp) (same ▸ h0) _ samef samea (samew ▸ hwid)
    (samew ▸ Width.round_correct _ hwid) lc facet gs rep hg (samep ▸ hgp) x hx hs h2

/-- `pad0(x, 8).hex().p(2)` and `hex(x).p(2).pad0(8)` -/
example : intOptions [.pad0 8, .hex, .p 2] = intOptions [.hex, .p 2, .pad0 8] ∧
    (intChain [.pad0 8, .hex, .p 2]).isSome ∧ (intChain [.hex, .p 2, .pad0 8]).isSome := by decide

/-- C66 is false for `base(b)` after `p`, `pad0` or `punct`, of which only the punctuation is kept: `pad0(255, 8).base(16)`
prints `ff`, although `base(16).pad0(8)` prints `000000ff`. -/
theorem base_loses_options_wrong :
    intOptions [.pad0 8, .base 16] = intOptions [.base 16, .pad0 8] ∧
    (∀ cs ∈ [([.pad0 8, .base 16] : List IntCall), [.base 16, .pad0 8]], (intChain cs).isSome) ∧
    ([([.pad0 8, .base 16] : List IntCall), [.base 16, .pad0 8]].map fun cs => (intChain cs).bind fun v =>
      ((v.item Dest.Maker.dest (Print.utf Dest.Maker.dest .utf8) .lower (fun _ => ⟨0, 0x2C⟩) ⟨true, 4, 255⟩).make
        .nothing).bind fun r => (r.2 (Dest.Maker.init (List.replicate 64 0))).map
        fun s => (Dest.Maker.finishE true s).2) =
      [some (some ("ff".toList.map Char.toNat)), some (some ("000000ff".toList.map Char.toNat))] := by
  refine ⟨by decide, by decide, ?_⟩
  decide +kernel

/-! ### which chains compile -/

/-- the sign functions are for decimal numbers, the base prefix for the others -/
def Allowed (before : List IntCall) (c : IntCall) : Prop :=
  ((c = .plus ∨ c = .fillSign) → (intOptions before).base = 10) ∧ (c = .star → (intOptions before).base ≠ 10)

theorem no_dynamic_keeps (cs : List IntCall) (h : ∀ c ∈ cs, c.isDynamic = false) : KeepsOptions cs := by
  intro pre b post e
  have := h (.base b) (by rw [e]; simp)
  cases this

theorem step_some (cs : List IntCall) (v : IntFmt) (h : StateOf cs v) (hd : ∀ c ∈ cs, c.isDynamic = false) (c : IntCall) :
    (v.step c).isSome ↔ Allowed cs c := by
  obtain ⟨spec, al⟩ := v
  have ho := h.options
  have hcl := h.cls
  have hb : (intOptions cs).base = spec.options.base := by rw [ho]
  unfold Allowed
  rw [hb]
  cases spec with
  | dynamic b pr pd sg sb pu =>
    obtain ⟨c, hc, e⟩ := hcl
    rw [hd c hc] at e; cases e
  | dflt => cases c <;> simp [IntFmt.step, IntSpec.step, stepDefault, IntSpec.options]
  | noPad0 b sg sb =>
    cases c <;> simp [IntFmt.step, IntSpec.step, stepNoPad0, IntSpec.options]
  | static b pu pr pd sg sb =>
    cases c <;> simp [IntFmt.step, IntSpec.step, stepStatic, IntSpec.options]

/-- Which chains compile, if the base is not given at run time: those where `+` and `~` are applied to decimal integers, and
`*` to the others (docs/ref_format_functions.adoc). -/
theorem int_chain_compiles (cs : List IntCall) (hd : ∀ c ∈ cs, c.isDynamic = false) :
    (intChain cs).isSome ↔ ∀ before c after, cs = before ++ c :: after → Allowed before c := by
  induction cs using List.reverseRecOn with
  | nil => simp [intChain, IntFmt.steps]
  | append_singleton cs c ih =>
    have hd' : ∀ c ∈ cs, c.isDynamic = false := fun c hc => hd c (by simp [hc])
    specialize ih hd'
    rw [chain_append]
    cases hc : intChain cs with
    | none =>
      rw [hc] at ih
      simp only [Option.bind_none, Option.isSome_none, Bool.false_eq_true, false_iff] at ih ⊢
      intro hall
      apply ih
      intro before c' after e
      exact hall before c' (after ++ [c]) (by rw [e]; simp)
    | some v =>
      rw [hc] at ih
      simp only [Option.isSome_some, true_iff] at ih
      have hst := chain_state cs v hc (no_dynamic_keeps cs hd')
      rw [Option.bind_some, step_some cs v hst hd' c]
      constructor
      · intro hal before c' after e
        rcases List.eq_nil_or_concat after with rfl | ⟨after', d, rfl⟩
        · obtain ⟨rfl, e2⟩ := List.append_inj' e rfl
          cases e2; exact hal
        · rw [List.concat_eq_append, ← List.cons_append, ← List.append_assoc] at e
          obtain ⟨rfl, _⟩ := List.append_inj' e rfl
          exact ih _ _ _ rfl
      · intro hall
        exact hall cs c [] rfl

/-- `+hex(x)` does not compile, `+dec(x)` does -/
example : (intChain [.hex, .plus]).isSome = false ∧ (intChain [.dec, .plus]).isSome = true ∧
    (intChain [.dec, .star]).isSome = false := by decide

/-! ### pointers -/

theorem alignChain_append (as : List AlignCall) (a : AlignCall) : alignChain (as ++ [a]) = alignStep (alignChain as) a := by
  simp [alignChain]

/-- the alignment format after a chain of alignment functions -/
theorem alignChain_ok (as : List AlignCall) :
    (alignChain as).getD AlignFmt.dflt = ⟨fillOf as, alignOf as, widthOf as⟩ := by
  induction as using List.reverseRecOn with
  | nil => rfl
  | append_singleton as a ih => rw [alignChain_append]; exact (alignStep_ok _ a as ih).1

/-- the text of a pointer: 0x and the hexadecimal digits of the address -/
def pointerText (lc : Lettercase) (address : Nat) : List Nat :=
  [0x30, if lc = .upper then 0x58 else 0x78] ++ text 16 lc address

/-- C67: pointers. The fill characters that are missing to the width are before or after, as the alignment functions say;
`columns` is the width asked for, rounded to an integer. -/
theorem pointer_exact (L : Lawful D Rep) (HC : C.Lawful D Rep) (B : Int) (lc : Lettercase) (facet : Nat → Punct)
    (as : List AlignCall) (hwid : CInt.InI32 (widthOf as)) (columns : Int) (hcol : WidthSpec.IsRound (widthOf as) columns)
    (address : Nat) (ha : address < 2 ^ 64) :
    ∃ it, ptrItem D C lc facet (alignChain as) address = some it ∧
      it.Means τ D Rep B (.ofColumns
        (times C.encodeChar (before (alignOf as) (columns - (pointerText lc address).length).toNat) (fillOf as) ++
          pointerText lc address ++
          times C.encodeChar ((columns - (pointerText lc address).length).toNat -
            before (alignOf as) (columns - (pointerText lc address).length).toNat) (fillOf as))
        ((pointerText lc address).length + (columns - (pointerText lc address).length).toNat)) := by
  have hx : IntVal.Ok ⟨false, 8, address⟩ := by
    refine ⟨by simp, ?_⟩
    simp only [Bool.false_eq_true, if_false]
    omega
  have hok := alignChain_ok as
  obtain ⟨fmt, hfmt⟩ : ∃ f : Fmt, f = ⟨16, 0, 0, .negativeOnly, true⟩ := ⟨_, rfl⟩
  have key : ∃ it, ptrItem D C lc facet (alignChain as) address = some it ∧ it.Means τ D Rep B
      (.ofColumns (formatted C.encodeChar lc [] [] false fmt ⟨fillOf as, alignOf as, columns⟩ ⟨false, 8, address⟩)
        (width [] false fmt ⟨fillOf as, alignOf as, columns⟩ ⟨false, 8, address⟩)) := by
    cases hal : alignChain as with
    | none =>
      rw [hal] at hok
      simp only [Option.getD_none, AlignFmt.dflt, AlignFmt.mk.injEq] at hok
      obtain ⟨h1, h2, h3⟩ := hok
      refine ⟨_, rfl, ?_⟩
      have hc0 : columns = 0 := by
        rw [← h3] at hcol
        exact IntPrinter.isRound_unique _ _ _ hcol (Width.round_correct 0 (by decide))
      rw [← h1, ← h2, hc0, hfmt]
      exact plainIntItem_means L B C.encodeChar lc 16 base16 (by decide) .negativeOnly true _ hx
    | some a =>
      rw [hal] at hok
      simp only [Option.getD_some] at hok
      subst hok
      refine ⟨_, rfl, ?_⟩
      rw [hfmt]
      exact Print.fmtIntItem_means L HC B _ ⟨base16, by decide, by decide⟩ (some _) _ ⟨rfl, rfl, hwid, hcol⟩ lc _ hx
  obtain ⟨it, e, hm⟩ := key
  refine ⟨it, e, ?_⟩
  have hmag : magnitude 16 ⟨false, 8, address⟩ = address := by
    simp only [magnitude, Nat.reduceEqDiff, if_false, Nat.reduceMul]
    omega
  have hlen : ∀ lc, (text 16 lc address).length = (text 16 .lower address).length := by
    intro lc; rw [IntDigits.text_length, IntDigits.text_length]
  have hg : groups [] false fmt ⟨false, 8, address⟩ = [(text 16 .lower address).length] := by
    rw [IntPrinter.groups_none, hfmt]; unfold digits; rw [hmag]
  have hlead : leader C.encodeChar lc fmt (fillOf as) ⟨false, 8, address⟩ = [0x30, if lc = .upper then 0x58 else 0x78] := by
    rw [hfmt]; rfl
  have hlc : leaderColumns fmt ⟨false, 8, address⟩ = 2 := by rw [hfmt]; rfl
  have hdig : ∀ lc, digits lc fmt ⟨false, 8, address⟩ = text 16 lc address := by
    intro lc; rw [hfmt]; unfold digits; rw [hmag]
  have hcols : IntPrinter.Spec.columns [] false fmt ⟨false, 8, address⟩ = (pointerText lc address).length := by
    unfold IntPrinter.Spec.columns pointerText
    rw [hg, hlc, hdig]
    simp [hlen lc]; omega
  have hz : zeros [] false fmt ⟨false, 8, address⟩ = 0 := by
    unfold zeros; rw [hfmt]; simp only; omega
  have hmiss : missing [] false fmt ⟨fillOf as, alignOf as, columns⟩ ⟨false, 8, address⟩ =
      (columns - (pointerText lc address).length).toNat := by
    unfold missing; rw [hz, hcols]; simp
  have ht : formatted C.encodeChar lc [] [] false fmt ⟨fillOf as, alignOf as, columns⟩ ⟨false, 8, address⟩ =
      times C.encodeChar (before (alignOf as) (columns - (pointerText lc address).length).toNat) (fillOf as) ++
          pointerText lc address ++
          times C.encodeChar ((columns - (pointerText lc address).length).toNat -
            before (alignOf as) (columns - (pointerText lc address).length).toNat) (fillOf as) := by
    unfold formatted
    dsimp only
    rw [hmiss, hlead, hz, hg, hdig, IntPrinter.grouped_one _ _ _ (hlen lc).symm]
    simp [pointerText]
  rw [← ht]
  have hw : width [] false fmt ⟨fillOf as, alignOf as, columns⟩ ⟨false, 8, address⟩ =
      (pointerText lc address).length + (columns - (pointerText lc address).length).toNat := by
    unfold width; rw [hcols, hz, hmiss]; omega
  rw [← hw]
  exact hm

/-- `strf::right(ptr, 10)` -/
example : CInt.InI32 (widthOf [.right (10 * 65536)]) ∧ WidthSpec.IsRound (widthOf [.right (10 * 65536)]) 10 ∧
    pointerText .upper 0xC0FE = "0XC0FE".toList.map Char.toNat := by
  refine ⟨by decide, ?_, by decide⟩
  exact Width.round_correct (10 * 65536) (by decide)

end Strf.Format

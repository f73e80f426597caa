import Verif.Format.IntProps
/-!
# C66: chains of format functions of integers, where `base` loses options

`int_chain_exact_partial` is about chains in which no `base(b)` loses anything. Here are all chains: `base(b)` acts as `set_int_format` of a format that has the
base, the punctuation asked for so far, and nothing else, if it comes after `p`, `pad0` or `punct` and no earlier call gave the base at run time.
-/
namespace Strf.Format
open Strf.IntPrinter.Spec Strf.IntDigits.Spec
open Strf.IntPrinter (AlignFmt Punct LayoutOf SepOk)
open Strf.Print (Item Charset Meaning)
open Strf.Dest (Dest Lawful)
open Strf.Numpunct.Spec (Valid args)

/-- The chain as it acts. `dyn`: the base was given at run time; `pad`: there was `p`, `pad0` or `punct`; `pu`: punctuation asked for so far. -/
def actsAs (dyn pad pu : Bool) : List IntCall → List IntCall
  | [] => []
  | .base b :: cs => (if pad && !dyn then .set ⟨b, 0, 0, .negativeOnly, false⟩ pu else .base b) :: actsAs true pad pu cs
  | c :: cs => c :: actsAs (dyn || c.isDynamic) (pad || c.isPad) (c.punct?.getD pu) cs

/-- the chain as it acts, from the beginning -/
def acting (cs : List IntCall) : List IntCall := actsAs false false false cs

/-- which specifiers there are when -/
def Flags (dyn pad pu : Bool) : IntSpec → Prop
  | .dflt => dyn = false ∧ pad = false ∧ pu = false
  | .noPad0 .. => dyn = false ∧ pad = false ∧ pu = false
  | .static _ p .. => dyn = false ∧ pad = true ∧ pu = p
  | .dynamic .. => dyn = true

theorem Flags.step {dyn pad pu : Bool} {v w : IntFmt} (h : Flags dyn pad pu v.spec) {c : IntCall} (e : v.step c = some w) :
    Flags (dyn || c.isDynamic) (pad || c.isPad) (c.punct?.getD pu) w.spec := by
  obtain ⟨s, al⟩ := v
  dsimp only at h
  cases c with
  | align a =>
    have hw : w.spec = s := by
      unfold IntFmt.step at e
      dsimp only at e
      split at e
      · split at e
        · cases e
        · cases e; rfl
      · cases e; rfl
    rw [hw]
    cases s <;> simpa [Flags, IntCall.isDynamic, IntCall.isPad, IntCall.punct?] using h
  | _ =>
    all_goals
      cases s <;> simp only [IntFmt.step, IntSpec.step, stepDefault, stepNoPad0, stepStatic, stepDynamic] at e <;> (try split at e) <;>
        (first
          | (simp only [Option.map_some, Option.some.injEq] at e; subst e; simp_all [Flags, IntCall.isDynamic, IntCall.isPad, IntCall.punct?])
          | (simp at e))

theorem step_acts {dyn pad pu : Bool} {v : IntFmt} (h : Flags dyn pad pu v.spec) (b : Nat) :
    v.step (if pad && !dyn then .set ⟨b, 0, 0, .negativeOnly, false⟩ pu else .base b) = v.step (.base b) := by
  obtain ⟨s, al⟩ := v
  cases s <;> simp_all [Flags, IntFmt.step, IntSpec.step, stepStatic]

theorem steps_acts (cs : List IntCall) : ∀ {dyn pad pu : Bool} {v : IntFmt}, Flags dyn pad pu v.spec → v.steps (actsAs dyn pad pu cs) = v.steps cs := by
  induction cs with
  | nil => intros; rfl
  | cons c cs ih =>
    intro dyn pad pu v h
    by_cases hb : ∃ b, c = .base b
    · obtain ⟨b, rfl⟩ := hb
      simp only [actsAs, IntFmt.steps]
      rw [step_acts h]
      cases e : v.step (.base b) with
      | none => rfl
      | some w =>
        have := h.step e
        simp only [Option.bind_some]
        exact ih (by simpa [IntCall.isDynamic, IntCall.isPad, IntCall.punct?] using this)
    · have e0 : actsAs dyn pad pu (c :: cs) = c :: actsAs (dyn || c.isDynamic) (pad || c.isPad) (c.punct?.getD pu) cs := by
        cases c <;> first | rfl | exact absurd ⟨_, rfl⟩ hb
      rw [e0]
      simp only [IntFmt.steps]
      cases e : v.step c with
      | none => rfl
      | some w => simp only [Option.bind_some]; exact ih (h.step e)

theorem actsAs_base (cs : List IntCall) : ∀ {dyn pad pu : Bool} {before : List IntCall} {b : Nat} {after : List IntCall},
    actsAs dyn pad pu cs = before ++ .base b :: after →
    (dyn = true ∨ ∃ c ∈ before, c.isDynamic = true) ∨ (pad = false ∧ ∀ c ∈ before, c.isPad = false) := by
  induction cs with
  | nil => intro dyn pad pu before b after h; simp [actsAs] at h
  | cons c cs ih =>
    intro dyn pad pu before b after h
    by_cases hb : ∃ n, c = .base n
    · obtain ⟨n, rfl⟩ := hb
      simp only [actsAs] at h
      rcases before with _ | ⟨d, before⟩
      · by_cases hs : (pad && !dyn) = true
        · rw [if_pos hs] at h; simp at h
        · cases dyn <;> cases pad <;> simp_all
      · left; right
        simp only [List.cons_append, List.cons.injEq] at h
        refine ⟨d, by simp, ?_⟩
        rw [← h.1]
        split <;> rfl
    · have e0 : actsAs dyn pad pu (c :: cs) = c :: actsAs (dyn || c.isDynamic) (pad || c.isPad) (c.punct?.getD pu) cs := by
        cases c <;> first | rfl | exact absurd ⟨_, rfl⟩ hb
      rw [e0] at h
      rcases before with _ | ⟨d, before⟩
      · simp only [List.nil_append, List.cons.injEq] at h
        exact absurd ⟨_, h.1⟩ hb
      · simp only [List.cons_append, List.cons.injEq] at h
        obtain ⟨rfl, h⟩ := h
        rcases ih h with (h1 | ⟨d, hd, h1⟩) | ⟨h1, h2⟩
        · simp only [Bool.or_eq_true] at h1
          rcases h1 with h1 | h1
          · exact .inl (.inl h1)
          · exact .inl (.inr ⟨c, by simp, h1⟩)
        · exact .inl (.inr ⟨d, by simp [hd], h1⟩)
        · simp only [Bool.or_eq_false_iff] at h1
          exact .inr ⟨h1.1, by simpa [h1.2] using h2⟩

/-- C66: every chain is the one in which each `base(b)` that loses options is replaced by what it does; and of that one, none loses anything. -/
theorem acting_same (cs : List IntCall) : intChain (acting cs) = intChain cs ∧ KeepsOptions (acting cs) := by
  refine ⟨steps_acts cs ⟨rfl, rfl, rfl⟩, fun before b after h => ?_⟩
  rcases actsAs_base cs h with (h | h) | h
  · cases h
  · exact .inl h
  · exact .inr (.inl h.2)

/-- Nothing is replaced if and only if no `base(b)` comes after `p`, `pad0` or `punct` while the base is not yet given at run time. -/
theorem acting_id_iff (cs : List IntCall) : acting cs = cs ↔
    ∀ before b after, cs = before ++ .base b :: after → (∃ c ∈ before, c.isDynamic = true) ∨ ∀ c ∈ before, c.isPad = false := by
  constructor
  · intro h before b after e
    have h' : actsAs false false false cs = before ++ .base b :: after := by rw [← e]; exact h
    rcases actsAs_base cs h' with (h | h) | h
    · cases h
    · exact .inl h
    · exact .inr h.2
  · have key : ∀ (cs : List IntCall) (dyn pad pu : Bool), (∀ before b after, cs = before ++ .base b :: after →
        (dyn = true ∨ ∃ c ∈ before, c.isDynamic = true) ∨ (pad = false ∧ ∀ c ∈ before, c.isPad = false)) → actsAs dyn pad pu cs = cs := by
      intro cs
      induction cs with
      | nil => intros; rfl
      | cons c cs ih =>
        intro dyn pad pu h
        have hrest : ∀ before b after, cs = before ++ .base b :: after →
            ((dyn || c.isDynamic) = true ∨ ∃ d ∈ before, d.isDynamic = true) ∨ ((pad || c.isPad) = false ∧ ∀ d ∈ before, d.isPad = false) := by
          intro before b after e
          rcases h (c :: before) b after (by rw [e]; rfl) with (h | ⟨d, hd, h3⟩) | ⟨h1, h2⟩
          · exact .inl (.inl (by simp [h]))
          · rcases List.mem_cons.mp hd with rfl | hd
            · exact .inl (.inl (by simp [h3]))
            · exact .inl (.inr ⟨d, hd, h3⟩)
          · exact .inr ⟨by simp [h1, h2 c (by simp)], fun d hd => h2 d (by simp [hd])⟩
        by_cases hb : ∃ n, c = .base n
        · obtain ⟨n, rfl⟩ := hb
          have h0 := h [] n cs rfl
          have hs : (pad && !dyn) = false := by
            rcases h0 with (h | ⟨d, hd, _⟩) | ⟨h, _⟩
            · simp [h]
            · cases hd
            · simp [h]
          simp only [actsAs, hs]
          have := ih true pad pu (by simpa [IntCall.isDynamic, IntCall.isPad] using hrest)
          rw [this]; rfl
        · have e0 : actsAs dyn pad pu (c :: cs) = c :: actsAs (dyn || c.isDynamic) (pad || c.isPad) (c.punct?.getD pu) cs := by
            cases c <;> first | rfl | exact absurd ⟨_, rfl⟩ hb
          rw [e0, ih _ _ _ hrest]
    intro h
    refine key cs false false false fun before b after e => ?_
    rcases h before b after e with h | h
    · exact .inl (.inr h)
    · exact .inr ⟨rfl, h⟩

theorem acting_align (cs : List IntCall) : alignCalls (acting cs) = alignCalls cs := by
  have key : ∀ (cs : List IntCall) (dyn pad pu : Bool), alignCalls (actsAs dyn pad pu cs) = alignCalls cs := by
    intro cs
    induction cs with
    | nil => intros; rfl
    | cons c cs ih =>
      intro dyn pad pu
      cases c with
      | base b =>
        simp only [actsAs]
        have := ih true pad pu
        unfold alignCalls at this ⊢
        rw [List.filterMap_cons, List.filterMap_cons, this]
        have e : (if (pad && !dyn) = true then IntCall.set ⟨b, 0, 0, .negativeOnly, false⟩ pu else .base b).align? = (IntCall.base b).align? := by
          split <;> rfl
        rw [e]
      | _ =>
        all_goals
          simp only [actsAs]
          unfold alignCalls at ih ⊢
          rw [List.filterMap_cons, List.filterMap_cons, ih]
  exact key cs false false false

/-- the options in use after any chain that compiles -/
theorem chain_options (cs : List IntCall) (v : IntFmt) (hv : intChain cs = some v) :
    v.spec.options = intOptions (acting cs) ∧ v.spec.punct = punctuated (acting cs) ∧
    v.align.getD AlignFmt.dflt = ⟨fillOf (alignCalls cs), alignOf (alignCalls cs), widthOf (alignCalls cs)⟩ := by
  obtain ⟨h1, h2⟩ := acting_same cs
  have h := chain_state (acting cs) v (h1.trans hv) h2
  have ha := h.align
  rw [acting_align] at ha
  exact ⟨h.options, h.punct, ha⟩

/-- C66 holds of a chain's options if and only if `base` has not lost any that was not given again after it. -/
theorem chain_options_iff (cs : List IntCall) (v : IntFmt) (hv : intChain cs = some v) :
    (v.spec.options = intOptions cs ↔ intOptions (acting cs) = intOptions cs) ∧ v.spec.punct = punctuated cs := by
  obtain ⟨h1, h2, -⟩ := chain_options cs v hv
  refine ⟨by rw [h1], ?_⟩
  rw [h2]
  have key : ∀ (cs : List IntCall) (dyn pad pu : Bool), last IntCall.punct? pu (actsAs dyn pad pu cs) = last IntCall.punct? pu cs := by
    intro cs
    induction cs with
    | nil => intros; rfl
    | cons c cs ih =>
      intro dyn pad pu
      have hl : ∀ (d : IntCall) (ds : List IntCall), last IntCall.punct? pu (d :: ds) = last IntCall.punct? (d.punct?.getD pu) ds := by
        intro d ds
        unfold last
        rw [List.filterMap_cons]
        cases d.punct? with
        | none => rfl
        | some x => simp [List.getLast?_cons]
      by_cases hb : ∃ n, c = .base n
      · obtain ⟨n, rfl⟩ := hb
        simp only [actsAs]
        rw [hl, hl]
        have : (if (pad && !dyn) = true then IntCall.set ⟨n, 0, 0, .negativeOnly, false⟩ pu else .base n).punct?.getD pu = pu := by
          split <;> rfl
        rw [this]
        exact ih true pad pu
      · have e0 : actsAs dyn pad pu (c :: cs) = c :: actsAs (dyn || c.isDynamic) (pad || c.isPad) (c.punct?.getD pu) cs := by
          cases c <;> first | rfl | exact absurd ⟨_, rfl⟩ hb
        rw [e0, hl, hl]
        exact ih _ _ _
  exact key cs false false false

variable {σ : Type} {D : Dest Nat σ} {Rep : σ → List Nat → Prop} {C : Charset σ}

/-- C66, for all chains: the integer is formatted with the options as the chain acts. What is missing are the defects of the printers (see
`int_chain_exact_partial`). -/
theorem int_chain_acting_partial (L : Lawful D Rep) (HC : C.Lawful D Rep) (B : Int) (cs : List IntCall) (v : IntFmt)
    (hv : intChain cs = some v) (hd : ¬ SignOnly (acting cs))
    (hp : (intOptions (acting cs)).precision ≤ 2147483582) (h0 : (intOptions (acting cs)).pad0 ≤ 2147483647)
    (lay : Layout) (hfill : lay.fill = fillOf (alignCalls cs)) (halign : lay.align = alignOf (alignCalls cs))
    (hwid : CInt.InI32 (widthOf (alignCalls cs))) (hcol : WidthSpec.IsRound (widthOf (alignCalls cs)) lay.columns)
    (lc : Lettercase) (facet : Nat → Punct) (gs : List Nat) (rep : Bool) (hg : Valid gs rep)
    (hgp : if punctuated cs then (facet (usedOptions (acting cs)).base).grouping = Numpunct.ctor2 (args gs rep)
      else gs = [] ∧ rep = false)
    (x : IntVal) (hx : x.Ok)
    (hs : SepOk C (facet (usedOptions (acting cs)).base).sep (groups gs rep (usedOptions (acting cs)) x).length)
    (h2 : (usedOptions (acting cs)).base ≠ 2 ∨ (C.encodeChar (facet (usedOptions (acting cs)).base).sep).length ≠ 1 ∨
      (groups gs rep (usedOptions (acting cs)) x).length = 1) :
    (v.item D C lc facet x).Means τ D Rep B
      (.ofColumns (formatted C.encodeChar lc (C.encodeChar (facet (usedOptions (acting cs)).base).sep) gs rep (usedOptions (acting cs)) lay x)
        (width gs rep (usedOptions (acting cs)) lay x)) := by
  obtain ⟨e1, e2⟩ := acting_same cs
  have hal := acting_align cs
  have hpu : punctuated (acting cs) = punctuated cs := by rw [← (chain_options cs v hv).2.1]; exact (chain_options_iff cs v hv).2
  rw [← hal] at hfill halign hwid hcol
  exact int_chain_exact_partial L HC B (acting cs) v (e1.trans hv) e2 hd hp h0 lay hfill halign hwid hcol lc facet gs rep hg (by rw [hpu]; exact hgp) x hx hs h2

/-- `pad0(255, 8).base(16)` acts as base 16 without zeros; if `pad0` is given again nothing is lost -/
example : acting [.pad0 8, .base 16] = [.pad0 8, .set ⟨16, 0, 0, .negativeOnly, false⟩ false] ∧
    intOptions (acting [.pad0 8, .base 16]) ≠ intOptions [.pad0 8, .base 16] ∧
    intOptions (acting [.pad0 8, .base 16, .pad0 5]) = intOptions [.pad0 8, .base 16, .pad0 5] ∧
    (intChain [.pad0 8, .base 16, .pad0 5]).isSome ∧ acting [.hex, .base 8, .pad0 5] = [.hex, .base 8, .pad0 5] := by decide

end Strf.Format

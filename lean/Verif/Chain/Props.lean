import Verif.Chain.Model
import Verif.Program.Plain
/-!
# C87: chains of calls on a printing syntax object
-/
namespace Strf.Chain
open Strf.Dest (Dest Lawful Maker Sized Appender)
open Strf.Print (Item Meaning AllMean total printPlain printCalc lineText)
open Strf.Program (Pack Arg Call TrCall call_exact_partial call_pack)
open Strf.Format (CharT)
open Strf.Tr (Reads Seg missing)

/-! ## What is asked for is what one gets -/

theorem change_eq {c : Caps} {o o' : Obj} {p : Policy} {v : Bool} (h : o.change c p v = some o') : o'.policy = p ∧ o'.pack = o.pack := by
  unfold Obj.change at h
  split at h
  · cases h; exact ⟨rfl, rfl⟩
  · cases h

theorem step_eq {c : Caps} {o o' : Obj} {st : Step} (h : o.step c st = some o') :
    o'.policy = (st.asks.getD o.policy) ∧ o'.pack = o.pack ++ (facets [st]).flatten := by
  cases st with
  | named k => cases h; exact ⟨rfl, by simp [facets]⟩
  | «with» fs =>
    cases fs with
    | nil =>
      simp only [Obj.step] at h
      split at h
      · cases h
      · cases h; exact ⟨rfl, by simp [facets]⟩
    | cons f fs => cases h; exact ⟨rfl, by simp [facets, Facets.merge]⟩
  | noReserve =>
    simp only [Obj.step] at h
    split at h
    · next e => cases h; exact ⟨e, by simp [facets]⟩
    · have := change_eq h; exact ⟨this.1, by simp [facets, this.2]⟩
  | reserveCalc =>
    simp only [Obj.step] at h
    split at h
    · next e => cases h; exact ⟨e, by simp [facets]⟩
    · have := change_eq h; exact ⟨this.1, by simp [facets, this.2]⟩
  | reserve n =>
    simp only [Obj.step] at h
    split at h
    · cases h
    · have := change_eq h; exact ⟨this.1, by simp [facets, this.2]⟩
  | reserveGivenSpace n =>
    simp only [Obj.step] at h
    split at h
    · cases h; exact ⟨rfl, by simp [facets]⟩
    · cases h

theorem facets_cons (st : Step) (l : List Step) : facets (st :: l) = facets [st] ++ facets l := by cases st <;> rfl

theorem lastPolicy_cons (p : Policy) (st : Step) (l : List Step) : lastPolicy p (st :: l) = lastPolicy (st.asks.getD p) l := by
  unfold lastPolicy
  rw [List.filterMap_cons]
  cases st.asks with
  | none => rfl
  | some q =>
    dsimp only
    rw [List.getLast?_cons]
    cases (List.filterMap Step.asks l).getLast? <;> rfl

/-- C87: whatever the chain, if it compiles, the policy of the object is the one written last, and its facets are all those that were written, in order. -/
theorem chain_exact {c : Caps} {l : List Step} {o o' : Obj} (h : o.steps c l = some o') :
    o'.policy = lastPolicy o.policy l ∧ o'.pack = o.pack ++ (facets l).flatten := by
  induction l generalizing o with
  | nil => cases h; exact ⟨rfl, by simp [facets]⟩
  | cons st l ih =>
    obtain ⟨o1, h1, h2⟩ := Option.bind_eq_some_iff.mp (show (o.step c st).bind _ = some o' from h)
    obtain ⟨a, b⟩ := step_eq h1
    obtain ⟨a', b'⟩ := ih h2
    refine ⟨by rw [a', a, lastPolicy_cons], ?_⟩
    rw [b', b, facets_cons st l, List.flatten_append, List.append_assoc]

/-! ## The result of the call -/

variable {σ σ' : Type} {Rep : σ → List Nat → Prop} {Rep' : σ' → List Nat → Prop} {T : CharT} {sg : CharT → Bool} {B : Int} {ms : List Meaning}

theorem pack_eq {c : Caps} {l : List Step} {o o' : Obj} (ho : o.pack = []) (h : o.steps c l = some o') (fs : Pack) :
    Facets.callFacets o'.pack fs = Facets.callFacets (Facets.withAll [] (facets l)) fs := by
  have : ∀ (l : List Pack) (a : Pack), Facets.withAll a l = a ++ l.flatten := by
    intro l
    induction l with
    | nil => intro a; simp [Facets.withAll]
    | cons x l ih =>
      intro a
      have := ih (Facets.merge a x)
      unfold Facets.withAll at this ⊢
      rw [List.foldl_cons, this]; simp [Facets.merge]
  rw [(chain_exact h).2, ho, this]

/-- the destinations of a creator keep the contract (C09), and begin with nothing written if they are created as asked for -/
structure Creator.Ok (cr : Creator σ σ') (Rep : σ → List Nat → Prop) (Rep' : σ' → List Nat → Prop) (size : Option Nat) : Prop where
  lawful : Lawful cr.dest Rep
  create : Rep cr.create []
  sized : ∀ d, cr.sized = some d → Lawful d.1 Rep' ∧ ∀ n, size = some n → Rep' (d.2 n) []

/-- what was written to the destination, of either type -/
def written (Rep : σ → List Nat → Prop) (Rep' : σ' → List Nat → Prop) : σ ⊕ σ' → List Nat → Prop
  | .inl s, t => Rep s t
  | .inr s, t => Rep' s t

theorem fits_of_step {c : Caps} {o o' : Obj} {st : Step} (ho : o.policy.fits c = true) (h : o.step c st = some o') : o'.policy.fits c = true := by
  have hch : ∀ {p v}, o.change c p v = some o' → o'.policy.fits c = true := by
    intro p v h
    unfold Obj.change at h
    split at h
    · next hp => cases h; simp only [Bool.and_eq_true] at hp; exact hp.1
    · cases h
  cases st with
  | named k => cases h; exact ho
  | «with» fs =>
    cases fs with
    | nil =>
      simp only [Obj.step] at h
      split at h
      · cases h
      · cases h; exact ho
    | cons f fs => cases h; exact ho
  | noReserve =>
    simp only [Obj.step] at h
    split at h
    · cases h; exact ho
    · exact hch h
  | reserveCalc =>
    simp only [Obj.step] at h
    split at h
    · cases h; exact ho
    · exact hch h
  | reserve n =>
    simp only [Obj.step] at h
    split at h
    · cases h
    · exact hch h
  | reserveGivenSpace n =>
    simp only [Obj.step] at h
    split at h
    · next e => cases h; rw [e] at ho; exact ho
    · cases h

theorem fits_of_steps {c : Caps} {l : List Step} {o o' : Obj} (ho : o.policy.fits c = true) (h : o.steps c l = some o') : o'.policy.fits c = true := by
  induction l generalizing o with
  | nil => cases h; exact ho
  | cons st l ih =>
    obtain ⟨o1, h1, h2⟩ := Option.bind_eq_some_iff.mp (show (o.step c st).bind _ = some o' from h)
    exact ih (fits_of_step ho h1) h2

theorem sized_of_fits {cr : Creator σ σ'} {p : Policy} {len n : Nat} (h : p.fits cr.caps = true) (hn : p.size len = some n) : ∃ d, cr.sized = some d := by
  cases p with
  | noReserve => cases hn
  | given k => exact Option.isSome_iff_exists.mp h
  | measured => exact Option.isSome_iff_exists.mp h

/-- C87: `syntax.STEPS(facets..., args...)`: for every chain of steps that compiles, every creator whose destinations keep the contract, and every call that means
something (C73) with the facets of the chain and its own: the call compiles, and writes the text of the call to the destination, that was created with the size that the
policy written last asks for. -/
theorem chain_call_partial {cr : Creator σ σ'} {l : List Step} {o o' : Obj} (ho : o.pack = []) (hf : o.policy.fits cr.caps = true)
    (h : o.steps cr.caps l = some o') {fs : Pack} {args : List Arg} {eol : Bool} (hm : (Call.mk (facets l) fs args eol).Means T B ms)
    (hc : cr.Ok Rep Rep' ((lastPolicy o.policy l).size ((Call.mk (facets l) fs args eol).text ms).length))
    (order : List Nat) (hord : order.Perm (List.range args.length)) :
    ∃ s, o'.call cr T sg fs args eol order = some s ∧ written Rep Rep' s ((Call.mk (facets l) fs args eol).text ms) ∧
      (s.isLeft ↔ lastPolicy o.policy l = .noReserve) := by
  have hp := (chain_exact h).1
  have hfit := fits_of_steps hf h
  rw [hp] at hfit
  have htxt : (Call.mk (facets l) fs args eol).text ms = lineText eol (total ms).text := rfl
  have hlen : ∀ {τ : Type} (D : Dest Nat τ) its, (Call.mk (facets l) fs args eol).items D T sg = some its → its.length = args.length := by
    intro τ D its hi
    have : ∀ (l : List Arg) (fp : Pack) its, Program.items D T sg fp l = some its → its.length = l.length := by
      intro l
      induction l with
      | nil => intro fp its e; simp only [Program.items, Option.some.injEq] at e; subst e; rfl
      | cons a l ih =>
        intro fp its e
        unfold Program.items at e
        obtain ⟨it, _, e⟩ := Option.bind_eq_some_iff.mp e
        obtain ⟨r, e1, rfl⟩ := Option.map_eq_some_iff.mp e
        simp [ih fp r e1]
    exact this _ _ _ hi
  unfold Obj.call
  dsimp only
  rw [hp, pack_eq ho h]
  cases hpol : lastPolicy o.policy l with
  | noReserve =>
    obtain ⟨its, hi, ha⟩ := call_exact_partial (τ := true) (sg := sg) hc.lawful hm
    obtain ⟨s, e, r, _⟩ := Print.printPlain_prints (τ := true) hc.lawful eol ha _ [] hc.create
    dsimp only
    rw [show Program.items cr.dest T sg (Facets.callFacets (Facets.withAll [] (facets l)) fs) args = some its from hi, Option.bind_some, e]
    exact ⟨_, rfl, by simpa [written, htxt] using r, by simp⟩
  | given n =>
    rw [hpol] at hfit hc
    obtain ⟨d, hd⟩ := sized_of_fits (len := 0) hfit rfl
    obtain ⟨L', hinit⟩ := hc.sized d hd
    obtain ⟨its, hi, ha⟩ := call_exact_partial (τ := true) (sg := sg) L' hm
    obtain ⟨s, e, r, _⟩ := Print.printPlain_prints (τ := true) L' eol ha _ [] (hinit n rfl)
    dsimp only
    rw [hd, Option.bind_some, show Program.items d.1 T sg (Facets.callFacets (Facets.withAll [] (facets l)) fs) args = some its from hi, Option.bind_some, e]
    exact ⟨_, rfl, by simpa [written, htxt] using r, by simp⟩
  | measured =>
    rw [hpol] at hfit hc
    obtain ⟨d, hd⟩ := sized_of_fits (len := 0) hfit rfl
    obtain ⟨L', hinit⟩ := hc.sized d hd
    obtain ⟨its, hi, ha⟩ := call_exact_partial (τ := true) (sg := sg) L' hm
    obtain ⟨pr, hpr, hcr⟩ := Print.printCalc_spec (τ := true) L' eol ha order (by rw [hlen _ _ hi]; exact hord)
    obtain ⟨s, e, r, _⟩ := hpr _ [] (hinit _ rfl)
    dsimp only
    rw [hd, Option.bind_some, show Program.items d.1 T sg (Facets.callFacets (Facets.withAll [] (facets l)) fs) args = some its from hi, Option.bind_some, hcr]
    rw [htxt] at e
    rw [e]
    exact ⟨_, rfl, by simpa [written, htxt] using r, by simp⟩

/-- C87: the same for `.tr(facets..., str, args...)` and `.trline`, if it compiles: with reserve_calc() it does just if the destination type without size can also be
created with a size. -/
theorem chain_tr_partial {cr : Creator σ σ'} {l : List Step} {o o' : Obj} (ho : o.pack = []) (hf : o.policy.fits cr.caps = true)
    (h : o.steps cr.caps l = some o') {fs : Pack} {str : List Nat} {args : List Arg} {eol : Bool} {segs : List Seg} {text : List Nat}
    (ht : (TrCall.mk (Call.mk (facets l) fs args eol) str).Text T B segs ms text)
    (hc : cr.Ok Rep Rep' ((lastPolicy o.policy l).size text.length))
    (hcalc : lastPolicy o.policy l = .measured → ∃ create, cr.plainSized = some create ∧ Rep (create text.length) []) :
    ∃ s, o'.tr cr T sg fs str args eol = some (s, missing args.length 0 segs) ∧ written Rep Rep' s text := by
  have hp := (chain_exact h).1
  have hfit := fits_of_steps hf h
  rw [hp] at hfit
  unfold Obj.tr
  dsimp only
  rw [hp, pack_eq ho h]
  cases hpol : lastPolicy o.policy l with
  | noReserve =>
    obtain ⟨⟨s, e, r⟩, _⟩ := Program.tr_call_exact_partial (sg := sg) hc.lawful ht _ [] hc.create
    unfold TrCall.print at e
    obtain ⟨its, hi, e⟩ := Option.bind_eq_some_iff.mp e
    dsimp only
    rw [show Program.items cr.dest T sg (Facets.callFacets (Facets.withAll [] (facets l)) fs) args = some its from hi, Option.bind_some]
    exact ⟨.inl s, congrArg (Option.map fun r => (Sum.inl r.1, r.2)) e, by simpa [written] using r⟩
  | given n =>
    rw [hpol] at hfit hc
    obtain ⟨d, hd⟩ := sized_of_fits (len := 0) hfit rfl
    obtain ⟨L', hinit⟩ := hc.sized d hd
    obtain ⟨⟨s, e, r⟩, _⟩ := Program.tr_call_exact_partial (sg := sg) L' ht _ [] (hinit n rfl)
    unfold TrCall.print at e
    obtain ⟨its, hi, e⟩ := Option.bind_eq_some_iff.mp e
    dsimp only
    rw [hd, Option.bind_some, show Program.items d.1 T sg (Facets.callFacets (Facets.withAll [] (facets l)) fs) args = some its from hi, Option.bind_some]
    exact ⟨.inr s, congrArg (Option.map fun r => (Sum.inr r.1, r.2)) e, by simpa [written] using r⟩
  | measured =>
    obtain ⟨create, hcr, hinit⟩ := hcalc hpol
    obtain ⟨_, k⟩ := Program.tr_call_exact_partial (sg := sg) hc.lawful ht _ [] hinit
    obtain ⟨s, e, r⟩ := k create rfl
    unfold TrCall.printCalc at e
    obtain ⟨its, hi, e⟩ := Option.bind_eq_some_iff.mp e
    dsimp only
    rw [hcr, Option.bind_some, show Program.items cr.dest T sg (Facets.callFacets (Facets.withAll [] (facets l)) fs) args = some its from hi, Option.bind_some]
    exact ⟨.inl s, congrArg (Option.map fun r => (Sum.inl r.1, r.2)) e, by simpa [written] using r⟩

/-! ## to_string, append -/

/-- what finish() returns, and with it the call -/
def Made (s : Maker Nat ⊕ Sized Nat) : Option (List Nat) :=
  match s with
  | .inl s => (Maker.finishE true s).2
  | .inr s => some (Sized.finish s)

theorem maker_ok (junk : List Nat) (hj : junk.length = 64) (size : Option Nat) :
    (maker junk).Ok (fun s t => Maker.Rep s t) (fun s t => Sized.Rep s t) size := by
  refine ⟨Maker.lawful, Maker.rep_init hj, fun d hd => ?_⟩
  cases hd
  exact ⟨Sized.lawful 0, fun n _ => Sized.rep_init 0 n⟩

theorem made_of_written {s : Maker Nat ⊕ Sized Nat} {t : List Nat}
    (h : written (fun s t => Maker.Rep s t) (fun s t => Sized.Rep s t) s t) : Made s = some t := by
  cases s with
  | inl s => exact Maker.finish_of_rep h
  | inr s => exact congrArg some (Sized.finish_of_rep h)

/-- C87: `to_string.STEPS(facets..., args...)` returns the text of the call with the facets of the steps, whatever the policies among them, -/
theorem to_string_chain_partial {l : List Step} {o' : Obj} (junk : List Nat) (hj : junk.length = 64)
    (h : aConstant.steps (maker junk).caps l = some o') {fs : Pack} {args : List Arg} {eol : Bool}
    (hm : (Call.mk (facets l) fs args eol).Means T B ms) (order : List Nat) (hord : order.Perm (List.range args.length)) :
    ∃ s, o'.call (maker junk) T sg fs args eol order = some s ∧ Made s = some ((Call.mk (facets l) fs args eol).text ms) := by
  obtain ⟨s, e, r, _⟩ := chain_call_partial rfl rfl h hm (maker_ok junk hj _) order hord
  exact ⟨s, e, made_of_written r⟩

/-- C87: and so do two chains with the same facets, if they compile, return the same string. -/
theorem same_facets_same_string_partial {l l' : List Step} {o o' : Obj} (junk : List Nat) (hj : junk.length = 64) (hl : facets l = facets l')
    (h : aConstant.steps (maker junk).caps l = some o) (h' : aConstant.steps (maker junk).caps l' = some o') {fs : Pack} {args : List Arg} {eol : Bool}
    (hm : (Call.mk (facets l) fs args eol).Means T B ms) (order : List Nat) (hord : order.Perm (List.range args.length)) :
    ∃ s s' t, o.call (maker junk) T sg fs args eol order = some s ∧ o'.call (maker junk) T sg fs args eol order = some s' ∧
      Made s = some t ∧ Made s' = some t := by
  obtain ⟨s, e, r⟩ := to_string_chain_partial (sg := sg) junk hj h hm order hord
  obtain ⟨s', e', r'⟩ := to_string_chain_partial (sg := sg) junk hj h' (by rw [← hl]; exact hm) order hord
  exact ⟨s, s', _, e, e', r, by rw [hl]; exact r'⟩

theorem appender_ok (start junk : List Nat) (hj : junk.length = 64) (size : Option Nat) :
    (appender start junk).Ok (fun s t => Appender.Rep start s t) (fun s t => Appender.Rep start s t) size := by
  refine ⟨Appender.lawful start, Appender.rep_init start hj, fun d hd => ?_⟩
  cases hd
  exact ⟨Appender.lawful start, fun _ _ => Appender.rep_init start hj⟩

/-- the string afterwards -/
def Appended : Appender Nat ⊕ Appender Nat → List Nat
  | .inl s | .inr s => (Appender.destroyE true (Appender.finishE true s).1).str

theorem appended_of_written {start : List Nat} {s : Appender Nat ⊕ Appender Nat} {t : List Nat}
    (h : written (fun s t => Appender.Rep start s t) (fun s t => Appender.Rep start s t) s t) : Appended s = start ++ t := by
  cases s <;> exact Appender.finish_of_rep h

/-- C87: `append(str).STEPS(facets..., args...)`; with `start` empty also `assign(str)` (to_string.hpp 354–361), -/
theorem append_chain_partial {l : List Step} {o' : Obj} (start junk : List Nat) (hj : junk.length = 64)
    (h : anRvalue.steps (appender start junk).caps l = some o') {fs : Pack} {args : List Arg} {eol : Bool}
    (hm : (Call.mk (facets l) fs args eol).Means T B ms) (order : List Nat) (hord : order.Perm (List.range args.length)) :
    ∃ s, o'.call (appender start junk) T sg fs args eol order = some s ∧ Appended s = start ++ (Call.mk (facets l) fs args eol).text ms := by
  obtain ⟨s, e, r, _⟩ := chain_call_partial rfl rfl h hm (appender_ok start junk hj _) order hord
  exact ⟨s, e, appended_of_written r⟩

/-- C87: and `.tr`, with any policy. -/
theorem append_tr_chain_partial {l : List Step} {o' : Obj} (start junk : List Nat) (hj : junk.length = 64)
    (h : anRvalue.steps (appender start junk).caps l = some o') {fs : Pack} {str : List Nat} {args : List Arg} {eol : Bool} {segs : List Seg} {text : List Nat}
    (ht : (TrCall.mk (Call.mk (facets l) fs args eol) str).Text T B segs ms text) :
    ∃ s, o'.tr (appender start junk) T sg fs str args eol = some (s, missing args.length 0 segs) ∧ Appended s = start ++ text := by
  obtain ⟨s, e, r⟩ := chain_tr_partial rfl rfl h ht (appender_ok start junk hj _) (fun _ => ⟨_, rfl, Appender.rep_init start hj⟩)
  exact ⟨s, e, appended_of_written r⟩

/-- C87: `to_string.STEPS.tr(facets..., str, args...)`, if it is not with reserve_calc(). -/
theorem to_string_tr_chain_partial {l : List Step} {o' : Obj} (junk : List Nat) (hj : junk.length = 64)
    (h : aConstant.steps (maker junk).caps l = some o') (hl : lastPolicy .noReserve l ≠ .measured) {fs : Pack} {str : List Nat} {args : List Arg} {eol : Bool}
    {segs : List Seg} {text : List Nat} (ht : (TrCall.mk (Call.mk (facets l) fs args eol) str).Text T B segs ms text) :
    ∃ s, o'.tr (maker junk) T sg fs str args eol = some (s, missing args.length 0 segs) ∧ Made s = some text := by
  obtain ⟨s, e, r⟩ := chain_tr_partial rfl rfl h ht (maker_ok junk hj _) (fun hcalc => absurd hcalc hl)
  exact ⟨s, e, made_of_written r⟩

/-- C87: Objects whose creator knows no sizes keep the policy no_reserve: chains with another policy do not compile. -/
theorem plain_only_chain {D : Dest Nat σ} {s : σ} {l : List Step} {o o' : Obj} (ho : o.policy = .noReserve)
    (h : o.steps (plainOnly D s).caps l = some o') : o'.policy = .noReserve := by
  have hf := fits_of_steps (c := (plainOnly D s).caps) (by rw [ho]; rfl) h
  cases hp : o'.policy with
  | noReserve => rfl
  | given n => rw [hp] at hf; cases hf
  | measured => rw [hp] at hf; cases hf

/-! ## What compiles -/

/-- the steps that compile with any rvalue -/
def Simple : Step → Bool
  | .with _ | .noReserve | .reserveCalc => true
  | _ => false

/-- C87: Chains of `with`, `no_reserve` and `reserve_calc` written one after the other compile, whatever their order, if the creator provides what they ask for;
also those that begin with `reserve`. -/
theorem simple_chain_compiles {c : Caps} (h1 : c.plain = true) (h2 : c.sized = true) {l : List Step} (hl : l.all Simple = true) {o : Obj} (ho : o.ref = .rvalue) :
    (o.steps c l).isSome ∧ ∀ n, (o.policy = .noReserve ∨ o.policy = .measured) → (o.steps c (.reserve n :: l)).isSome := by
  have key : ∀ {l : List Step} {o : Obj}, l.all Simple = true → o.ref = .rvalue → (o.steps c l).isSome := by
    intro l
    induction l with
    | nil => intro o _ _; rfl
    | cons st l ih =>
      intro o hl ho
      simp only [List.all_cons, Bool.and_eq_true] at hl
      obtain ⟨o1, e, hr⟩ : ∃ o1, o.step c st = some o1 ∧ o1.ref = .rvalue := by
        cases st with
        | «with» fs =>
          cases fs with
          | nil => exact ⟨o, by simp [Obj.step, ho], ho⟩
          | cons f fs => exact ⟨_, rfl, rfl⟩
        | noReserve =>
          simp only [Obj.step]
          split
          · exact ⟨o, rfl, ho⟩
          · exact ⟨⟨.rvalue, .noReserve, o.pack⟩, by simp [Obj.change, Policy.fits, h1, ho], rfl⟩
        | reserveCalc =>
          simp only [Obj.step]
          split
          · exact ⟨o, rfl, ho⟩
          · exact ⟨⟨.rvalue, .measured, o.pack⟩, by simp [Obj.change, Policy.fits, h2], rfl⟩
        | reserve n => cases hl.1
        | reserveGivenSpace n => cases hl.1
        | named k => cases hl.1
      have := ih hl.2 hr
      show ((o.step c st).bind fun o => o.steps c l).isSome
      rw [e]; exact this
  refine ⟨key hl ho, fun n hp => ?_⟩
  have e : o.step c (.reserve n) = some ⟨.rvalue, .given n.toNat, o.pack⟩ := by
    rcases hp with hp | hp <;> simp [Obj.step, hp, Obj.change, Policy.fits, h2]
  show ((o.step c (.reserve n)).bind fun o => o.steps c l).isSome
  rw [e]; exact key hl rfl

/-- C87 fails: not all chains compile although the creator provides what they ask for. `x.reserve(10).reserve(20)`; `x.no_reserve()` of a variable or constant with another
policy; `x.with()` of a variable. -/
theorem chain_compiles_wrong :
    (anRvalue.steps ⟨true, true⟩ [.reserve 10, .reserve 20]).isNone ∧
    (∀ o : Obj, o.policy = .measured → ∀ k, (o.steps ⟨true, true⟩ [.named k, .noReserve]).isNone) ∧
    (∀ o : Obj, (o.steps ⟨true, true⟩ [.named false, .with []]).isNone) := by
  refine ⟨rfl, fun o h k => ?_, fun o => ?_⟩
  · cases k <;> simp [Obj.steps, Obj.step, h, Obj.change]
  · simp [Obj.steps, Obj.step]

/-- C87 fails: `to_string.reserve_calc().tr(…)` does not compile. -/
theorem to_string_tr_calc_wrong (o : Obj) (h : o.policy = .measured) (junk : List Nat) (fs : Pack) (str : List Nat) (args : List Arg) (eol : Bool) :
    o.tr (maker junk) T sg fs str args eol = none := by
  simp [Obj.tr, h, maker]

/-! ## Examples -/

/-- `to_u8string.with(numpunct<10>(3)).reserve(9).with(uppercase).reserve_calc()(punct(1234567), true)` -/
def someSteps : List Step := [.with [.facet (.numpunct 10) (.numpunct 10 ⟨Numpunct.ctor2 [3], 0x2E, 0x2C⟩)], .reserve 9,
  .with [.facet .lettercase (.lettercase .upper)], .reserveCalc]

/-- it compiles, and prints "1,234,567TRUE" -/
example : ((aConstant.steps (maker (List.replicate 64 0)).caps someSteps).bind fun o =>
    (o.call (maker (List.replicate 64 0)) .char8 (fun _ => false) [] [.int Program.intTy [.punct] 1234567, .bool none true] false [1, 0]).bind Made) =
      some (Print.txt "1,234,567TRUE") := by decide +kernel

/-- `auto x = append(str).reserve_calc(); x.with(uppercase).line(true)` -/
example : ((anRvalue.steps (appender [0x2A] (List.replicate 64 0)).caps [.reserveCalc, .named false, .with [.facet .lettercase (.lettercase .upper)]]).bind fun o =>
    (o.call (appender [0x2A] (List.replicate 64 0)) .char8 (fun _ => false) [] [.bool none true] true [0]).map Appended) =
      some (Print.txt "*TRUE\n") := by decide +kernel

/-- the theorems apply: calls of arguments without format and facets mean something (C80); `to_string.reserve(9).reserve_calc()(args...)` -/
example (T : CharT) (l : List Program.PlainArg) (hl : ∀ a ∈ l, a.Ok T) (order : List Nat) (hord : order.Perm (List.range (l.map (·.arg T)).length)) :
    ∃ o s t, aConstant.steps (maker (List.replicate 64 0)).caps [.reserve 9, .reserveCalc] = some o ∧
      o.call (maker (List.replicate 64 0)) T (fun _ => false) [] (l.map (·.arg T)) false order = some s ∧ Made s = some t ∧ Program.SaysAll T false l t := by
  obtain ⟨ms, hm, hs⟩ := Program.plain_means (T := T) false l hl
  obtain ⟨s, e, r⟩ := to_string_chain_partial (sg := fun _ => false) (l := [.reserve 9, .reserveCalc]) (o' := ⟨.rvalue, .measured, []⟩)
    (List.replicate 64 0) (by simp) (by rfl) (fs := []) (args := l.map (·.arg T)) (eol := false) hm order hord
  exact ⟨_, s, _, rfl, e, r, hs⟩

end Strf.Chain

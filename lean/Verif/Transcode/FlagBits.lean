import Verif.Transcode.CallProps
/-!
# C97: the flags of a conversion

detail/facets/charset.hpp 13–59. `Sbc.Flags` is what the conversions are shown to depend on (C11–C24, C76, C77, C85); here is how a value
of `transcode_flags` is read as one, and what the operators between flags do to it.
-/
namespace Strf.Transcode.FlagBits
open Strf.Sbc (Flags)

/-! ## Model -/

/-- detail/facets/charset.hpp 13–19 `transcode_flags`, with its value converted to `unsigned` (of 32 bits): an enumeration without an
underlying type of its own is represented by `int`, so that all values of 32 bits are values of it. -/
abbrev Word := BitVec 32

/-- charset.hpp 14 `none` -/
def none : Word := 0
/-- charset.hpp 15 `surrogate_policy` -/
def surrogatePolicy : Word := 1
/-- charset.hpp 16 `lax_surrogate_policy` -/
def laxSurrogatePolicy : Word := 1
/-- charset.hpp 17 `stop_on_invalid_sequence` -/
def stopOnInvalidSequence : Word := 1 <<< 1
/-- charset.hpp 18 `stop_on_unsupported_codepoint` -/
def stopOnUnsupportedCodepoint : Word := 1 <<< 2

/-- charset.hpp 21–25 `operator|` -/
def or (a b : Word) : Word := a ||| b
/-- charset.hpp 27–31 `operator&` -/
def and (a b : Word) : Word := a &&& b
/-- charset.hpp 33–36 `operator|=`: the new value of `a`, and what is returned, which refers to it -/
def orAssign (a b : Word) : Word × Word := let a := or a b; (a, a)
/-- charset.hpp 38–41 `operator&=` -/
def andAssign (a b : Word) : Word × Word := let a := and a b; (a, a)

/-- charset.hpp 43–46 `with_strict_surrogate_policy` -/
def withStrict (f : Word) : Bool := none == and f laxSurrogatePolicy
/-- charset.hpp 47–50 `with_lax_surrogate_policy` -/
def withLax (f : Word) : Bool := none != and f laxSurrogatePolicy
/-- charset.hpp 51–54 `with_stop_on_invalid_sequence` -/
def withStop (f : Word) : Bool := none != and f stopOnInvalidSequence
/-- charset.hpp 55–58 `with_stop_on_unsupported_codepoint` -/
def withStopUnsup (f : Word) : Bool := none != and f stopOnUnsupportedCodepoint

/-- what the conversions ask of their flags (charset.hpp 43–58) -/
def flagsOf (f : Word) : Flags := ⟨withLax f, withStop f, withStopUnsup f⟩

/-! ## Specification -/

/-- either has it -/
def union (f g : Flags) : Flags := ⟨f.lax || g.lax, f.stop || g.stop, f.stopUnsup || g.stopUnsup⟩
/-- both have it -/
def inter (f g : Flags) : Flags := ⟨f.lax && g.lax, f.stop && g.stop, f.stopUnsup && g.stopUnsup⟩

/-- an expression made of the names of the flags and `|`: how users write flags -/
inductive Expr
  | none | surrogate | lax | stop | stopUnsup
  | or (a b : Expr)

/-- its value -/
def Expr.value : Expr → Word
  | .none => FlagBits.none
  | .surrogate => surrogatePolicy
  | .lax => laxSurrogatePolicy
  | .stop => stopOnInvalidSequence
  | .stopUnsup => stopOnUnsupportedCodepoint
  | .or a b => FlagBits.or a.value b.value

/-- the names that occur in it -/
def Expr.names : Expr → Flags
  | .none => ⟨false, false, false⟩
  | .surrogate => ⟨true, false, false⟩
  | .lax => ⟨true, false, false⟩
  | .stop => ⟨false, true, false⟩
  | .stopUnsup => ⟨false, false, true⟩
  | .or a b => union a.names b.names

/-! ## Proofs -/

theorem has_bit (f : Word) (k : Nat) (hk : k < 32) : (none != and f (1 <<< k)) = f.getLsbD k := by
  have h : ∀ i, (f &&& (1#32 <<< k)).getLsbD i = (f.getLsbD i && decide (i = k)) := by
    intro i
    rw [BitVec.getLsbD_and]
    congr 1
    rw [BitVec.getLsbD_shiftLeft]
    by_cases hi : i = k
    · subst hi; simp [hk]
    · simp only [hi, decide_false, BitVec.getLsbD_one]
      rcases Nat.lt_or_gt_of_ne hi with h | h
      · simp [h]
      · have : ¬ i - k = 0 := by omega
        simp [this]
  cases hb : f.getLsbD k with
  | true =>
    rw [bne_iff_ne]
    intro e
    have := h k
    have e : (f &&& (1#32 <<< k)) = 0#32 := e.symm
    rw [e, hb] at this
    simp at this
  | false =>
    have e : (f &&& (1#32 <<< k)) = 0#32 := by
      apply BitVec.eq_of_getLsbD_eq
      intro i _
      rw [h i]
      by_cases hi : i = k
      · subst hi; simp [hb]
      · simp [hi]
    unfold none and
    rw [show f &&& (1 <<< k) = 0#32 from e]
    rfl

theorem flagsOf_bits (f : Word) : flagsOf f = ⟨f.getLsbD 0, f.getLsbD 1, f.getLsbD 2⟩ := by
  unfold flagsOf withLax withStop withStopUnsup
  rw [show laxSurrogatePolicy = 1 <<< 0 from rfl, show stopOnInvalidSequence = 1 <<< 1 from rfl,
    show stopOnUnsupportedCodepoint = 1 <<< 2 from rfl, has_bit f 0 (by omega), has_bit f 1 (by omega), has_bit f 2 (by omega)]

/-- C97: of any two values, `|` (and `|=`) has the flags that either has, `&` (and `&=`) those that both have -/
theorem flags_combine (a b : Word) :
    flagsOf (or a b) = union (flagsOf a) (flagsOf b) ∧ flagsOf (and a b) = inter (flagsOf a) (flagsOf b) ∧
    orAssign a b = (or a b, or a b) ∧ andAssign a b = (and a b, and a b) := by
  refine ⟨?_, ?_, rfl, rfl⟩
  · simp [flagsOf_bits, or, union]
  · simp [flagsOf_bits, and, inter]

/-- C97: the surrogate policy is strict or lax, not both -/
theorem strict_or_lax (f : Word) : withStrict f = !withLax f := by simp [withStrict, withLax, bne]

/-- C97: flags written as names joined by `|` are those named, however often and in whatever order -/
theorem flags_named (e : Expr) : flagsOf e.value = e.names := by
  induction e with
  | or a b iha ihb => rw [Expr.value, (flags_combine _ _).1, iha, ihb]; rfl
  | _ => decide

/-- C97: all combinations of the three flags can be so written -/
theorem flags_reached (f : Flags) : ∃ e : Expr, flagsOf e.value = f := by
  obtain ⟨a, b, c⟩ := f
  refine ⟨.or (if a then .lax else .none) (.or (if b then .stop else .none) (if c then .stopUnsup else .none)), ?_⟩
  rw [flags_named]
  cases a <;> cases b <;> cases c <;> rfl

example : flagsOf (or stopOnUnsupportedCodepoint laxSurrogatePolicy) = ⟨true, false, true⟩ := by decide

end Strf.Transcode.FlagBits

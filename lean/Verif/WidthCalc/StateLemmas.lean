import Verif.WidthCalc.TreeLemmas
/-! The state machine of std_width_calc_func decides the boundaries of UAX #29. -/
namespace Strf.WidthCalc

/-- The code at the labels in terms of the property of the code point. -/
def handleG (g : Gcb) (state : Nat) : Nat × Bool :=
  match g with
  | .lv => enter (state = afterHangulL) state afterHangulLv afterHangulLv
  | .lvt => enter (state = afterHangulL) state afterHangulLvt afterHangulLvt
  | .other => handle .other 0 state | .cr => handle .cr 0 state | .lf => handle .lf 0 state
  | .control => handle .control 0 state | .extend => handle .extend 0 state | .zwj => handle .zwj 0 state
  | .ri => handle .regionalIndicator 0 state | .prepend => handle .prepend 0 state
  | .spacingMark => handle .spacingMark 0 state | .l => handle .hangulL 0 state | .v => handle .hangulV 0 state
  | .t => handle .hangulT 0 state | .pict => handle .extendedPicto 0 state

theorem handle_eq (c state : Nat) (h : c ≤ 0x10FFFF) : handle (classify c).1 c state = handleG (gcb c) state := by
  rw [classify_gcb c h]
  generalize (classify c).1 = l
  cases l with
  | hangulLvOrLvt =>
    by_cases g : c ≤ 0xD788 ∧ c &&& 3 = 0 ∧ ((c - 0xAC00) >>> 2) % 7 = 0
    · rw [if_pos ⟨rfl, g⟩]; simp only [handle, handleG]; rw [if_pos g]
    · rw [if_neg (fun q => g q.2)]; simp only [handle, handleG, Label.gcb]; rw [if_neg g]
  | _ => rw [if_neg (fun q => by cases q.1)]; rfl

/-- Is the last thing before, extending characters aside, an emoji? -/
def afterPict (b : List Gcb) : Bool := (b.dropWhile (· == .extend)).head? == some .pict

/-- Is the number of regional indicators just before odd? -/
def oddRi (b : List Gcb) : Bool := (b.takeWhile (· == .ri)).length % 2 == 1

/-- What the state says of the properties of the code points before, the nearest first. -/
inductive Inv : List Gcb → Nat → Prop
  | start : Inv [] 0
  | control (b) : Inv (.control :: b) 0
  | lf (b) : Inv (.lf :: b) 0
  | prepend (b) : Inv (.prepend :: b) 1
  | other (b) : Inv (.other :: b) 2
  | riEven (b) : oddRi b = true → Inv (.ri :: b) 2
  | riOdd (b) : oddRi b = false → Inv (.ri :: b) 6
  | pict (b) : Inv (.pict :: b) 10
  | pictExtend (b) : afterPict b = true → Inv (.extend :: b) 10
  | pictZwj (b) : afterPict b = true → Inv (.zwj :: b) 18
  | l (b) : Inv (.l :: b) 98
  | v (b) : Inv (.v :: b) 162
  | t (b) : Inv (.t :: b) 290
  | lv (b) : Inv (.lv :: b) 546
  | lvt (b) : Inv (.lvt :: b) 1058
  | extend (b) : afterPict b = false → Inv (.extend :: b) 2048
  | zwj (b) : afterPict b = false → Inv (.zwj :: b) 2048
  | mark (b) : Inv (.spacingMark :: b) 2048
  | cr (b) : Inv (.cr :: b) 4096

theorem afterPict_cons (g : Gcb) (b : List Gcb) :
    afterPict (g :: b) = if g = .extend then afterPict b else decide (g = .pict) := by
  cases g <;> simp [afterPict]

theorem oddRi_cons (g : Gcb) (b : List Gcb) : oddRi (g :: b) = if g = .ri then !oddRi b else false := by
  cases g <;> simp [oddRi]
  by_cases h : (b.takeWhile (· == .ri)).length % 2 = 1
  · rw [Bool.eq_iff_iff]; simp; omega
  · rw [Bool.eq_iff_iff]; simp; omega

theorem boundary_eq (p : Gcb) (b : List Gcb) (g : Gcb) : boundary (p :: b) g =
    if p = .cr ∧ g = .lf then false
    else if p = .control ∨ p = .cr ∨ p = .lf then true
    else if g = .control ∨ g = .cr ∨ g = .lf then true
    else if p = .l ∧ (g = .l ∨ g = .v ∨ g = .lv ∨ g = .lvt) then false
    else if (p = .lv ∨ p = .v) ∧ (g = .v ∨ g = .t) then false
    else if (p = .lvt ∨ p = .t) ∧ g = .t then false
    else if g = .extend ∨ g = .zwj then false
    else if g = .spacingMark then false
    else if p = .prepend then false
    else if p = .zwj ∧ afterPict b = true ∧ g = .pict then false
    else if oddRi (p :: b) = true ∧ g = .ri then false
    else true := by
  unfold boundary afterPict oddRi
  simp

theorem Inv.step {b : List Gcb} {s : Nat} (h : Inv b s) (g : Gcb) :
    (handleG g s).2 = boundary b g ∧ Inv (g :: b) (handleG g s).1 := by
  have e1 := afterPict_cons
  have e2 := oddRi_cons
  cases h
  case start => cases g <;> refine ⟨by decide, ?_⟩ <;> constructor <;> rfl
  all_goals rw [boundary_eq, e2]
  all_goals cases g
  all_goals
    simp only [handleG, handle, handleSpacingMark, enter, afterCore, afterPrepend, afterRi, afterXpic, afterXpicZwj,
      afterHangul, afterHangulL, afterHangulV, afterHangulT, afterHangulLv, afterHangulLvt, afterPoscore, afterCr, initial]
    simp [*]
    constructor
  all_goals (simp [*])

theorem Inv.next {before : List Nat} {s c : Nat} (h : Inv (before.map gcb) s) (hc : c ≤ 0x10FFFF) :
    (handle (classify c).1 c s).2 = boundary (before.map gcb) (gcb c) ∧
    Inv ((c :: before).map gcb) (handle (classify c).1 c s).1 := by
  rw [handle_eq c s hc]
  exact h.step (gcb c)

end Strf.WidthCalc

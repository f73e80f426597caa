/-!
The form of the decision procedure in include/strf/detail/ch32_width_and_gcb_prop: what it tests, and how it is
executed.
-/
namespace Strf.WidthCalc

/-- The labels `handle_…` of std_width_calc_func (width_calculator.hpp 205–389). -/
inductive Label | other | cr | lf | control | extend | extendAndControl | zwj | regionalIndicator | prepend | spacingMark
  | hangulL | hangulV | hangulT | hangulLvOrLvt | extendedPicto
deriving DecidableEq, Repr

/-- Nested conditionals on `ch`, as in ch32_width_and_gcb_prop. -/
inductive Tree
  | goto (l : Label)
  | le (n : Nat) (yes no : Tree)
  | eq (n : Nat) (yes no : Tree)
  | width (w : Nat) (t : Tree)

/-- Execution for the code point `ch`, with `ch_width` (in columns) being `w` before: where the control goes, and
`ch_width` then. -/
def Tree.eval (ch : Nat) : Tree → Nat → Label × Nat
  | .goto l, w => (l, w)
  | .le n a b, w => if ch ≤ n then a.eval ch w else b.eval ch w
  | .eq n a b, w => if ch = n then a.eval ch w else b.eval ch w
  | .width w' t, _ => t.eval ch w'

end Strf.WidthCalc

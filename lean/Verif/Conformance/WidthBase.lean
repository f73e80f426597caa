import Verif.WidthCalc.Model
/-!
# The model against the project's own tests of `std_width_calc`

Not proofs of properties: `Width.lean` evaluates the model of `std_width_calc_func`, in Lean's kernel, on the statements `TEST_WIDTH` and
`TEST_POS` of /repo/tests/std_width_calculator.cpp, and compares what test_width_one_pass, test_width_char_by_char (26–93) and test_pos
(95–112) compare.
-/
namespace Strf.WidthCalc

/-- the largest width_t -/
def maxWidth : Int := 0x7FFFFFFF

/-- the sizes of the groups of code points that `std_width_calc_func`, called with a code point at a time, gives a width of their own
(tests/std_width_calculator.cpp 35–50) -/
def charByChar : List Nat → Int → Nat → Nat → List Nat × Int
  | [], rem, _, size => ([size], rem)
  | ch :: t, rem, state, size =>
    let r := calcFunc false 0 [ch] rem state
    if size ≠ 0 ∧ r.remaining ≠ rem then
      let (l, rem') := charByChar t r.remaining r.state 1
      (size :: l, rem')
    else charByChar t r.remaining r.state (size + 1)

/-- `TEST_WIDTH(width, sizes, chars...)`: all widths involved are whole numbers of columns -/
def widthTest (t : Int × List Nat × List Nat) : Bool :=
  let one := calcFunc false 0 t.2.2 maxWidth 0
  let (sizes, rem) := charByChar t.2.2 maxWidth 0 0
  maxWidth - one.remaining == t.1 * 65536 && maxWidth - rem == t.1 * 65536 && sizes == t.2.1

/-- `TEST_POS(pos, max_width, chars...)`; the width in units of 1/65536 of a column -/
def posTest (t : Nat × Int × List Nat) : Bool := (calcFunc true 0 t.2.2 t.2.1 0).ptr == some t.1

end Strf.WidthCalc

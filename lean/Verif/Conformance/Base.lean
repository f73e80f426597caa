import Verif.Program.CallProps
/-!
# The model against the project's own unit tests

Not proofs of properties: these modules evaluate the model, in Lean's kernel, on the statements `TEST("expected").with(facets...)(args...)`
of /repo/tests that tools/conformance.py could translate (nearly all of them), and compare with the expected text. They are evidence
that the model of a call (`Call.items`, the printers, the charsets, the facets) is that of the code.
-/
namespace Strf.Program
open Strf.Format

/-- each call, with a destination of the given character type, prints the given code units -/
def allPrint (l : List (CharT × Call × List Nat)) : Bool := l.all fun t => callPrinted t.1 t.2.1 == some t.2.2

/-- a wrong expectation is noticed -/
example : allPrint [(.char, ⟨[], [], [.int intTy [] 1], false⟩, [0x31]), (.char, ⟨[], [], [.int intTy [] 1], false⟩, [0x32])] = false := by
  decide +kernel

end Strf.Program

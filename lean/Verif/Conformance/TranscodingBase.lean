import Verif.Transcode.Model
/-!
# The model against the project's own tests of transcoding

Not proofs of properties: `Transcoding.lean` evaluates the model, in Lean's kernel, on the statements `TEST_UTF_TRANSCODE`,
`TEST_UTF_UNSAFE_TRANSCODE`, `TEST_TRANSCODE` and `TEST_UNSAFE_TRANSCODE` of /repo/tests that tools/conformance.py could translate.
What is compared is what tests/test_utils/transcoding.hpp compares: what was written, the stop reason, the invalid sequences and the
unsupported code points notified, and what `transcode_size` counts and its stop reason.
-/
namespace Strf.Transcode
open Strf.Format Strf.Sbc

/-- one statement of the tests (`transcoding_test_data`, tests/test_utils/transcoding.hpp 236–285) -/
structure Case where
  safe : Bool
  S : CharT
  T : CharT
  s : CharsetArg
  d : CharsetArg
  flags : Flags
  room : Nat
  src : List Nat
  expected : List Nat
  why : Utf.Reason
  invalid : List (List Nat)
  unsupported : List Nat

/-- the sequences notified as invalid -/
def invalidUnits (src : List Nat) : List Charset.Event → List (List Nat)
  | [] => []
  | .invalid e n :: l => (src.drop (src.length - e)).take n :: invalidUnits src l
  | .unsupported _ :: l => invalidUnits src l

/-- the code points notified as unsupported -/
def unsupportedPoints : List Charset.Event → List Nat
  | [] => []
  | .invalid _ _ :: l => unsupportedPoints l
  | .unsupported c :: l => c :: unsupportedPoints l

/-- what tests/test_utils/transcoding.hpp 416–520 compares -/
def Case.passes (c : Case) : Bool :=
  let r := if c.safe then transcode c.S c.T c.s c.d c.flags c.room c.src else unsafeTranscode c.S c.T c.s c.d c.flags c.room c.src
  let n := if c.safe then transcodeSize c.S c.T true c.s c.d c.flags c.room c.src
    else unsafeTranscodeSize c.S c.T c.s c.d c.flags c.room c.src
  let m := if c.safe then transcodeSize c.S c.T false c.s c.d c.flags c.room c.src else n
  match r, n, m with
  | some r, some n, some m =>
    r.out == c.expected && r.why == c.why && invalidUnits c.src r.events == c.invalid && unsupportedPoints r.events == c.unsupported &&
      n.count == c.expected.length && n.why == c.why && m.count == c.expected.length && m.why == c.why
  | _, _, _ => false

def allTranscode (l : List Case) : Bool := l.all Case.passes

end Strf.Transcode

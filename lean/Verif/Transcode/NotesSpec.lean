import Verif.Transcode.Spec
import Verif.Charset.Props
/-!
# What the error notifier must be told during a conversion between two charsets

docs: the transcoding_error_notifier facet; its functions `invalid_sequence` and `unsupported_codepoint` are called for the problems
met. `Event`, `OnceOrTwice`: Charset/.
-/
namespace Strf.Transcode
open Strf.Format (CsName)
open Strf.Utf (Reason)
open Strf.Charset (Event OnceOrTwice)

/-- what is to be said of a mark which begins `left` units before the end of the source: that it is ill-formed, where and of which
size; or else that the charset lacks it -/
def note (d : CsName) (left : Nat) (m : Mark) : List Event :=
  if m.bad then [.invalid left m.size] else if supported d m.char then [] else [.unsupported m.char]

/-- what is to be said of marks, in the order of the source, which has `left` units -/
def notes (d : CsName) : Nat → List Mark → List Event
  | _, [] => []
  | left, m :: ms => note d left m ++ notes d (left - m.size) ms

def isInvalid : Event → Bool
  | .invalid _ _ => true
  | .unsupported _ => false

/-- those about ill-formed sequences -/
def invalids (es : List Event) : List Event := es.filter isInvalid
/-- those about characters that the charset lacks -/
def unsupporteds (es : List Event) : List Event := es.filter fun e => !isInvalid e

/-- The notifier was told of the problems of the marks that were converted, and of that of the mark at which the conversion ended, if
any (`todo`): each once or twice, in order, and of nothing else. -/
def Told (d : CsName) (src : List Nat) (ms todo : List Mark) (events : List Event) : Prop :=
  ∃ before, ms = before ++ todo ∧ OnceOrTwice (notes d src.length (before ++ todo.take 1)) events

/-- The same, but the ill-formed sequences are told apart from the other problems; and they may be told ahead: up to 17 marks, if the
conversion ended early and not because of an ill-formed sequence. -/
def ToldApart (d : CsName) (src : List Nat) (ms todo : List Mark) (why : Reason) (events : List Event) : Prop :=
  ∃ before ahead, ms = before ++ todo ∧ ahead <+: todo ∧ ahead.length ≤ 17 ∧ (why = .invalid → ahead = todo.take 1) ∧
    OnceOrTwice (invalids (notes d src.length (before ++ ahead))) (invalids events) ∧
    OnceOrTwice (unsupporteds (notes d src.length (before ++ todo.take 1))) (unsupporteds events)

end Strf.Transcode

import Mathlib.Logic.Basic
/-!
# The tr-string syntax

docs/ref_printable_types.adoc 377–430 ("Tr-string Syntax" and "Syntax error handling"). Code units are natural numbers; '{'
is 0x7B, '}' is 0x7D, '-' is 0x2D and the digits are 0x30–0x39 in all charsets.
-/
namespace Strf.Tr

/-- what a tr-string consists of; `pos` is the position of the `{` of a reference -/
inductive Seg
  /-- a code unit that is printed as it is -/
  | char (c : Nat)
  /-- `{{` -/
  | brace
  /-- `{-…}` -/
  | comment
  /-- a non positional argument reference -/
  | next (pos : Nat)
  /-- a positional argument reference, to the argument `i` -/
  | at (i : Nat) (pos : Nat)
deriving DecidableEq, Repr

def IsDigit (c : Nat) : Prop := 0x30 ≤ c ∧ c ≤ 0x39
instance (c : Nat) : Decidable (IsDigit c) := inferInstanceAs (Decidable (_ ∧ _))

/-- what follows the next `}`, or nothing -/
def afterClose (l : List Nat) : List Nat := (l.dropWhile (· ≠ 0x7D)).tail

/-- the number a sequence of digits denotes -/
def numeral (ds : List Nat) : Nat := ds.foldl (fun v d => v * 10 + (d - 0x30)) 0

/-- `Reads i l segs`: the string `l`, which starts at position `i` of the tr-string, consists of `segs`.

| A `{` followed by  | until                          | means
| `-`                | the next `}` or end of string  | a comment
| a digit            | the next `}` or end of string  | a positional argument reference
| another `{`        | the second `{`                 | an escaped `{`
| any other character| the next `}` or end of string  | a non positional argument reference

A `{` at the end of the string is a non positional argument reference, too. -/
inductive Reads : Nat → List Nat → List Seg → Prop
  | done {i} : Reads i [] []
  | char {i c l segs} : c ≠ 0x7B → Reads (i + 1) l segs → Reads i (c :: l) (.char c :: segs)
  | brace {i l segs} : Reads (i + 2) l segs → Reads i (0x7B :: 0x7B :: l) (.brace :: segs)
  | comment {i l segs} : Reads (i + (l.length + 2 - (afterClose l).length)) (afterClose l) segs →
      Reads i (0x7B :: 0x2D :: l) (.comment :: segs)
  | positional {i ds l segs} : ds ≠ [] → (∀ d ∈ ds, IsDigit d) → (∀ c, l.head? = some c → ¬ IsDigit c) →
      Reads (i + (1 + ds.length + l.length - (afterClose l).length)) (afterClose l) segs →
      Reads i (0x7B :: (ds ++ l)) (.at (numeral ds) i :: segs)
  | next {i l segs} : (∀ c, l.head? = some c → c ≠ 0x7B ∧ c ≠ 0x2D ∧ ¬ IsDigit c) →
      Reads (i + (1 + l.length - (afterClose l).length)) (afterClose l) segs →
      Reads i (0x7B :: l) (.next i :: segs)

/-- What is printed: `k` is the number of non positional references so far. -/
def expand (args : List (List Nat)) (replacement : List Nat) : Nat → List Seg → List Nat
  | _, [] => []
  | k, .char c :: segs => c :: expand args replacement k segs
  | k, .brace :: segs => 0x7B :: expand args replacement k segs
  | k, .comment :: segs => expand args replacement k segs
  | k, .next _ :: segs => args.getD k replacement ++ expand args replacement (k + 1) segs
  | k, .at i _ :: segs => args.getD i replacement ++ expand args replacement k segs

/-- The positions of the references to arguments that do not exist, in order. -/
def missing (numArgs : Nat) : Nat → List Seg → List Nat
  | _, [] => []
  | k, .next pos :: segs => (if k < numArgs then [] else [pos]) ++ missing numArgs (k + 1) segs
  | k, .at i pos :: segs => (if i < numArgs then [] else [pos]) ++ missing numArgs k segs
  | k, _ :: segs => missing numArgs k segs

/-- What a tr-string consists of for the calculation of its width: pieces of text, and arguments (by number). An escaped `{`
begins a new piece, and there is no empty piece at the end. `run` is the text since the last piece. -/
inductive Piece
  | text (run : List Nat)
  | arg (i : Nat)
deriving DecidableEq, Repr

def pieces : Nat → List Nat → List Seg → List Piece
  | _, run, [] => if run = [] then [] else [.text run]
  | k, run, .char c :: segs => pieces k (run ++ [c]) segs
  | k, run, .brace :: segs => .text run :: pieces k [0x7B] segs
  | k, run, .comment :: segs => .text run :: pieces k [] segs
  | k, run, .next _ :: segs => .text run :: .arg k :: pieces (k + 1) [] segs
  | k, run, .at i _ :: segs => .text run :: .arg i :: pieces k [] segs

/-- The width of a tr-string: that of the pieces of text and of the arguments; `missingWidth` for an argument that does not
exist. -/
def width (textWidth : List Nat → Int) (argWidths : List Int) (missingWidth : Int) : List Piece → Int
  | [] => 0
  | .text run :: ps => textWidth run + width textWidth argWidths missingWidth ps
  | .arg i :: ps => argWidths.getD i missingWidth + width textWidth argWidths missingWidth ps

end Strf.Tr

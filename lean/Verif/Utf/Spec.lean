/-!
# What the Unicode Transformation Formats are (independent of the code)

`encode e c` is the encoding form of Unicode section 3.9 (D90, D91, D92) written with ordinary arithmetic.
`Parses e lax src items` says how a sequence of code units is to be read: wherever the encoding of some scalar
value begins, that scalar is read; elsewhere one maximal subpart (D93b) is ill-formed and is set aside.
With `lax = true` the surrogate code points are admitted as if they were scalar values (strf's
`surrogate_policy::lax`, i.e. generalized UTF-8 / WTF-8, and ill-formed UTF-16).
-/
namespace Strf.Utf

/-- The three encoding forms. -/
inductive Enc | utf8 | utf16 | utf32
deriving DecidableEq, Repr

/-- Code units of an encoding form are the numbers below this bound. -/
def Enc.bound : Enc → Nat
  | .utf8 => 0x100
  | .utf16 => 0x10000
  | .utf32 => 0x100000000

/-- A sequence of code units of the form. -/
def Units (e : Enc) (l : List Nat) : Prop := ∀ u ∈ l, u < e.bound

instance (e : Enc) (l : List Nat) : Decidable (Units e l) := by unfold Units; infer_instance

/-- Surrogate code points. -/
def IsSurr (c : Nat) : Prop := 0xD800 ≤ c ∧ c ≤ 0xDFFF

instance (c : Nat) : Decidable (IsSurr c) := by unfold IsSurr; infer_instance

/-- Unicode scalar values (D76); every code point in lax mode. -/
def Scalar (lax : Bool) (c : Nat) : Prop := c ≤ 0x10FFFF ∧ (lax = true ∨ ¬ IsSurr c)

instance (lax : Bool) (c : Nat) : Decidable (Scalar lax c) := by unfold Scalar; infer_instance

/-- The encoding forms. -/
def encode : Enc → Nat → List Nat
  | .utf8, c =>
    if c < 0x80 then [c]
    else if c < 0x800 then [0xC0 + c / 0x40, 0x80 + c % 0x40]
    else if c < 0x10000 then [0xE0 + c / 0x1000, 0x80 + c / 0x40 % 0x40, 0x80 + c % 0x40]
    else [0xF0 + c / 0x40000, 0x80 + c / 0x1000 % 0x40, 0x80 + c / 0x40 % 0x40, 0x80 + c % 0x40]
  | .utf16, c =>
    if c < 0x10000 then [c]
    else [0xD800 + (c - 0x10000) / 0x400, 0xDC00 + (c - 0x10000) % 0x400]
  | .utf32, c => [c]

/-- What a decoder reads at one place: a character, or an ill-formed sequence of `n` code units. -/
inductive Item
  | ch (c : Nat)
  | bad (n : Nat)
deriving DecidableEq, Repr

/-- Number of source code units an item takes. -/
def Item.size (e : Enc) : Item → Nat
  | .ch c => (encode e c).length
  | .bad n => n

/-- The character an item is transcoded to: itself, or U+FFFD. -/
def Item.char : Item → Nat
  | .ch c => c
  | .bad _ => 0xFFFD

def Item.isBad : Item → Bool
  | .ch _ => false
  | .bad _ => true

/-- `src` begins with the encoding of `c` (the longest such; this matters only in lax UTF-16, where a
surrogate pair must be read as one character). -/
def Starts (e : Enc) (lax : Bool) (src : List Nat) (c : Nat) : Prop :=
  Scalar lax c ∧ encode e c <+: src ∧
  ∀ c', Scalar lax c' → encode e c' <+: src → (encode e c').length ≤ (encode e c).length

/-- `l` is an initial part of the encoding of some scalar value. -/
def Initial (e : Enc) (lax : Bool) (l : List Nat) : Prop := ∃ c, Scalar lax c ∧ l <+: encode e c

/-- D93b: the first `n` units of `src` are its maximal subpart: the longest initial part of a well-formed
sequence, or one unit. -/
def MaximalSubpart (e : Enc) (lax : Bool) (src : List Nat) (n : Nat) : Prop :=
  1 ≤ n ∧ n ≤ src.length ∧ (n = 1 ∨ Initial e lax (src.take n)) ∧
  ∀ m, n < m → m ≤ src.length → ¬ Initial e lax (src.take m)

/-- How a sequence of code units is to be read. -/
inductive Parses (e : Enc) (lax : Bool) : List Nat → List Item → Prop
  | nil : Parses e lax [] []
  | ch {src : List Nat} {c : Nat} {items : List Item} :
      Starts e lax src c → Parses e lax (src.drop (encode e c).length) items →
      Parses e lax src (.ch c :: items)
  | bad {src : List Nat} {n : Nat} {items : List Item} :
      src ≠ [] → (∀ c, ¬ Starts e lax src c) → MaximalSubpart e lax src n →
      Parses e lax (src.drop n) items → Parses e lax src (.bad n :: items)

/-- A well-formed sequence: the encodings of scalar values, one after the other. -/
def WellFormed (e : Enc) (lax : Bool) (src : List Nat) : Prop :=
  ∃ cs : List Nat, (∀ c ∈ cs, Scalar lax c) ∧ src = cs.flatMap (encode e)

/-- The transcoding of a list of items into the form `d`. -/
def render (d : Enc) (items : List Item) : List Nat := items.flatMap fun i => encode d i.char

/-- Source units taken by a list of items. -/
def extent (e : Enc) : List Item → Nat
  | [] => 0
  | i :: is => i.size e + extent e is

end Strf.Utf

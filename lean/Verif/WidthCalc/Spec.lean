import Verif.WidthCalc.Unicode
/-!
# What the width of a text is (independent of the code)

Grapheme cluster boundaries as in UAX #29 revision 37 (Unicode 13.0.0), section 3.1.1; the width of a code point as in
docs/ref_width.adoc ("std_width_calc", char_width), that is [format.string.std]/11 of the C++20 draft; the width of a
text is the sum of the widths of its clusters, that of a cluster the width of its first code point.
-/
namespace Strf.WidthCalc

/-- docs/ref_width.adoc 430–446: the code points whose width is 2. -/
def isWide (c : Nat) : Bool :=
  (0x1100 ≤ c && c ≤ 0x115F) || (0x2329 ≤ c && c ≤ 0x232A) || (0x2E80 ≤ c && c ≤ 0x303E) ||
  (0x3040 ≤ c && c ≤ 0xA4CF) || (0xAC00 ≤ c && c ≤ 0xD7A3) || (0xF900 ≤ c && c ≤ 0xFAFF) ||
  (0xFE10 ≤ c && c ≤ 0xFE19) || (0xFE30 ≤ c && c ≤ 0xFE6F) || (0xFF00 ≤ c && c ≤ 0xFF60) ||
  (0xFFE0 ≤ c && c ≤ 0xFFE6) || (0x1F300 ≤ c && c ≤ 0x1F64F) || (0x1F900 ≤ c && c ≤ 0x1F9FF) ||
  (0x20000 ≤ c && c ≤ 0x2FFFD) || (0x30000 ≤ c && c ≤ 0x3FFFD)

/-- The width of a code point, in columns. -/
def columns (c : Nat) : Nat := if isWide c then 2 else 1

/-- UAX #29: is there a boundary between a code point of class `next` and those before it, whose classes are `before`,
the nearest one first? -/
def boundary (before : List Gcb) (next : Gcb) : Bool :=
  match before with
  | [] => true                                                                             -- GB1
  | prev :: rest =>
    if prev = .cr ∧ next = .lf then false                                                  -- GB3
    else if prev = .control ∨ prev = .cr ∨ prev = .lf then true                            -- GB4
    else if next = .control ∨ next = .cr ∨ next = .lf then true                            -- GB5
    else if prev = .l ∧ (next = .l ∨ next = .v ∨ next = .lv ∨ next = .lvt) then false      -- GB6
    else if (prev = .lv ∨ prev = .v) ∧ (next = .v ∨ next = .t) then false                  -- GB7
    else if (prev = .lvt ∨ prev = .t) ∧ next = .t then false                               -- GB8
    else if next = .extend ∨ next = .zwj then false                                        -- GB9
    else if next = .spacingMark then false                                                 -- GB9a
    else if prev = .prepend then false                                                     -- GB9b
    else if prev = .zwj ∧ (rest.dropWhile (· == .extend)).head? = some .pict ∧ next = .pict then false  -- GB11
    else if (before.takeWhile (· == .ri)).length % 2 = 1 ∧ next = .ri then false           -- GB12, GB13
    else true                                                                              -- GB999

/-- The sum of the widths of the clusters that begin in a text, `before` (backwards) being what precedes it. -/
def columnsAfter (before : List Nat) : List Nat → Nat
  | [] => 0
  | c :: t =>
    (if boundary (before.map gcb) (gcb c) then columns c else 0) + columnsAfter (c :: before) t

/-- The width of a text of code points, in columns. -/
def textColumns (s : List Nat) : Nat := columnsAfter [] s

end Strf.WidthCalc

import Verif.Utf.Spec
import Verif.Sbc.Published
import Verif.Numpunct.Spec
/-!
# What a locale says about numbers

On POSIX systems: `localeconv()` and `nl_langinfo(CODESET)` (C standard 7.11.2, POSIX). On Windows: the strings that
`GetLocaleInfoEx` gives for LOCALE_SGROUPING, LOCALE_SDECIMAL and LOCALE_STHOUSAND. No reference to the code of strf.
-/
namespace Strf.Locale
open Strf.Utf (Enc Item Parses)

/-- The strings of `struct lconv` (their bytes, without the terminating zero) and the name of the codeset. -/
structure Conv where
  codeset : String
  decimalPoint : List Nat
  thousandsSep : List Nat
  grouping : List Nat

/-- The bytes of a C string. -/
def CString (s : List Nat) : Prop := ∀ b ∈ s, 1 ≤ b ∧ b < 256

instance (s : List Nat) : Decidable (CString s) := by unfold CString; infer_instance

def Conv.Ok (c : Conv) : Prop := CString c.decimalPoint ∧ CString c.thousandsSep ∧ CString c.grouping

/-- The single-byte codesets the library reads the strings in, with their published tables. -/
def tables : List (String × List (Option Nat)) :=
  [("ISO-8859-1", Sbc.pub_iso_8859_1), ("ISO-8859-3", Sbc.pub_iso_8859_3), ("ISO-8859-15", Sbc.pub_iso_8859_15)]

/-- What a string of the locale begins with. -/
inductive Sym
  /-- the string is empty -/
  | missing
  /-- the character (code point) -/
  | char (c : Nat)
  /-- bytes that are not a character of the codeset -/
  | unreadable
  /-- a byte over 0x7F, in a codeset that the library does not know -/
  | unknown
deriving DecidableEq

/-- The first character of a string in a codeset. -/
inductive Begins (codeset : String) : List Nat → Sym → Prop
  | missing : Begins codeset [] .missing
  | ascii {b : Nat} {t : List Nat} (h : b < 0x80) : Begins codeset (b :: t) (.char b)
  | utf8 {b c : Nat} {t : List Nat} (h : 0x80 ≤ b) (hc : codeset = "UTF-8") (hs : Utf.Starts .utf8 false (b :: t) c) :
      Begins codeset (b :: t) (.char c)
  | utf8Bad {b : Nat} {t : List Nat} (h : 0x80 ≤ b) (hc : codeset = "UTF-8")
      (hs : ∀ c, ¬ Utf.Starts .utf8 false (b :: t) c) : Begins codeset (b :: t) .unreadable
  | byte {b c : Nat} {t : List Nat} {table : List (Option Nat)} (h : 0x80 ≤ b) (hc : (codeset, table) ∈ tables)
      (hs : Sbc.meaning table b = some c) : Begins codeset (b :: t) (.char c)
  | byteBad {b : Nat} {t : List Nat} {table : List (Option Nat)} (h : 0x80 ≤ b) (hc : (codeset, table) ∈ tables)
      (hs : Sbc.meaning table b = none) : Begins codeset (b :: t) .unreadable
  | unknown {b : Nat} {t : List Nat} (h : 0x80 ≤ b) (hu : codeset ≠ "UTF-8")
      (hc : ∀ table, (codeset, table) ∉ tables) : Begins codeset (b :: t) .unknown

/-- `lconv::grouping`: each element is the size of a group; CHAR_MAX says that no further grouping is performed; the
end of the string, that the previous element is repeatedly used. The result: the sizes, and is the last one repeated. -/
def groupsOf (charMax : Nat) : List Nat → List Nat × Bool
  | [] => ([], true)
  | g :: t => if g = charMax then ([], false) else (g :: (groupsOf charMax t).1, (groupsOf charMax t).2)

/-- The groupings a `digits_grouping` can hold: at most six groups of 1 to 31 digits. -/
def Representable (gs : List Nat) : Prop := gs.length ≤ 6 ∧ ∀ g ∈ gs, 1 ≤ g ∧ g ≤ 31

instance (gs : List Nat) : Decidable (Representable gs) := by unfold Representable; infer_instance

/-- One number of LOCALE_SGROUPING: one or two digits. -/
inductive Numeral : List Nat → Nat → Prop
  | one {a : Nat} (h : a < 10) : Numeral [48 + a] a
  | two {a b : Nat} (ha : a < 10) (hb : b < 10) : Numeral [48 + a, 48 + b] (10 * a + b)

/-- LOCALE_SGROUPING: group sizes separated by semicolons; the last group is repeated if a zero follows it. -/
inductive WinGroups : List Nat → List Nat → Bool → Prop
  | last {s : List Nat} {g : Nat} (h : Numeral s g) (hg : 0 < g) : WinGroups s [g] false
  | zero {s : List Nat} (h : Numeral s 0) : WinGroups s [] true
  | more {s t gs : List Nat} {g : Nat} {rep : Bool} (h : Numeral s g) (hg : 0 < g) (ht : WinGroups t gs rep) :
      WinGroups (s ++ 59 :: t) (g :: gs) rep

/-- The first character of a UTF-16 string. -/
inductive Begins16 : List Nat → Sym → Prop
  | missing : Begins16 [] .missing
  | char {s : List Nat} {c : Nat} (hs : Utf.Starts .utf16 false s c) : Begins16 s (.char c)
  | bad {s : List Nat} (h : s ≠ []) (hs : ∀ c, ¬ Utf.Starts .utf16 false s c) : Begins16 s .unreadable

/-- The decimal point that stands for what was read: U+FFFD unless it is a character. -/
def Sym.point : Sym → Nat
  | .char c => c
  | _ => 0xFFFD

/-- The thousands separator: none if there is no character; a no-break space for a character that cannot be known. -/
def Sym.separator : Sym → Option Nat
  | .char c => if c = 0xFFFD then none else some c
  | .unknown => some 0xA0
  | _ => none

end Strf.Locale

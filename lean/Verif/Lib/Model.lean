import Verif.Dest.Memory
import Verif.Dest.Model
/-!
# Model: what stands for the standard library in freestanding mode, string views, the iterator

include/strf/detail/standard_lib_functions.hpp, include/strf/detail/simple_string_view.hpp, include/strf/iterator.hpp. Memory is a list of code units (one object);
a pointer is a position in it; reading or writing outside of it is undefined behaviour (`none`).
-/
namespace Strf.Lib
open Strf.Dest (Dest storeAt)

/-- `*p = v` -/
def store {α : Type} (mem : List α) (p : Nat) (v : α) : Option (List α) := if p < mem.length then some (mem.set p v) else none

/-- standard_lib_functions.hpp 271–274, 287–290 the loop of str_fill_n: `n` is how many times it is still executed -/
def fillLoop {α : Type} (value : α) : Nat → List α → Nat → Option (List α)
  | 0, mem, _ => some mem
  | n + 1, mem, p => (store mem p value).bind fun mem => fillLoop value n mem (p + 1)

/-- standard_lib_functions.hpp 264–291 str_fill_n without the standard library -/
def fillN {α : Type} (mem : List α) (p : Nat) (count : Int) (value : α) : Option (List α) := fillLoop value count.toNat mem p

/-- standard_lib_functions.hpp 301–303 the loop of str_length, from position `p`, `length` units after the beginning; `n`: units until the end of the memory -/
def lengthLoop (mem : List Nat) : Nat → Nat → Nat → Option Nat
  | 0, _, _ => none
  | n + 1, p, length => if mem.getD p 0 ≠ 0 then lengthLoop mem n (p + 1) (length + 1) else some length

/-- standard_lib_functions.hpp 294–305 str_length without the standard library -/
def strLength (mem : List Nat) (p : Nat) : Option Nat := lengthLoop mem (mem.length - p) p 0

/-- standard_lib_functions.hpp 321–326 the loop of str_find; `n`: how many times it is still executed. `some none`: null. -/
def findLoop (mem : List Nat) (ch : Nat) : Nat → Nat → Option (Option Nat)
  | 0, _ => some none
  | n + 1, p => match mem[p]? with
    | none => none
    | some x => if x = ch then some (some p) else findLoop mem ch n (p + 1)

/-- standard_lib_functions.hpp 314–328 str_find without the standard library -/
def strFind (mem : List Nat) (p count ch : Nat) : Option (Option Nat) := findLoop mem ch count p

/-- standard_lib_functions.hpp 338–343 str_equal without the standard library; the strings are in two objects -/
def strEqual (m1 : List Nat) (p1 : Nat) (m2 : List Nat) (p2 : Nat) : Nat → Option Bool
  | 0 => some true
  | n + 1 => match m1[p1]?, m2[p2]? with
    | some x, some y => if x ≠ y then some false else strEqual m1 (p1 + 1) m2 (p2 + 1) n
    | _, _ => none

/-- standard_lib_functions.hpp 358–360, 375–377, 392–394 copy_n without the standard library, in one object; `f` converts the character type -/
def copyN {α : Type} (f : α → α) (mem : List α) (src dst : Nat) : Nat → Option (List α)
  | 0 => some mem
  | n + 1 => match mem[src]? with
    | none => none
    | some x => (store mem dst (f x)).bind fun mem => copyN f mem (src + 1) (dst + 1) n

/-- standard_lib_functions.hpp 358–360, 375–377, 392–394 copy_n without the standard library, from one object to another -/
def copyTo {α β : Type} (f : α → β) (from_ : List α) (mem : List β) (src dst : Nat) : Nat → Option (List β)
  | 0 => some mem
  | n + 1 => match from_[src]? with
    | none => none
    | some x => (store mem dst (f x)).bind fun mem => copyTo f from_ mem (src + 1) (dst + 1) n

/-- standard_lib_functions.hpp 138–238 slow_countl_zero_ll -/
def slowCountlZero (x : Nat) : Nat :=
  if x ≤ 0xffffffff then
    if x ≤ 0xffff then
      if x ≤ 0xff then
        if x ≤ 0xf then
          if x ≤ 3 then
            if x = 0 then 64
            else
              if x ≤ 1 then 63 else 62
          else
            if x ≤ 7 then 61 else 60
        else
          if x ≤ 0x3f then
            if x ≤ 0x1f then 59 else 58
          else
            if x ≤ 0x7f then 57 else 56
      else
        if x ≤ 0xfff then
          if x ≤ 0x3ff then
            if x ≤ 0x1ff then 55 else 54
          else
            if x ≤ 0x7ff then 53 else 52
        else
          if x ≤ 0x3fff then
            if x ≤ 0x1fff then 51 else 50
          else
            if x ≤ 0x7fff then 49 else 48
    else
      if x ≤ 0xffffff then
        if x ≤ 0xfffff then
          if x ≤ 0x3ffff then
            if x ≤ 0x1ffff then 47 else 46
          else
            if x ≤ 0x7ffff then 45 else 44
        else
          if x ≤ 0x3fffff then
            if x ≤ 0x1fffff then 43 else 42
          else
            if x ≤ 0x7fffff then 41 else 40
      else
        if x ≤ 0xfffffff then
          if x ≤ 0x3ffffff then
            if x ≤ 0x1ffffff then 39 else 38
          else
            if x ≤ 0x7ffffff then 37 else 36
        else
          if x ≤ 0x3fffffff then
            if x ≤ 0x1fffffff then 35 else 34
          else
            if x ≤ 0x7fffffff then 33 else 32
  else
    if x ≤ 0xffffffffffff then
      if x ≤ 0xffffffffff then
        if x ≤ 0xfffffffff then
          if x ≤ 0x3ffffffff then
            if x ≤ 0x1ffffffff then 31 else 30
          else
            if x ≤ 0x7ffffffff then 29 else 28
        else
          if x ≤ 0x3fffffffff then
            if x ≤ 0x1fffffffff then 27 else 26
          else
            if x ≤ 0x7fffffffff then 25 else 24
      else
        if x ≤ 0xfffffffffff then
          if x ≤ 0x3ffffffffff then
            if x ≤ 0x1ffffffffff then 23 else 22
          else
            if x ≤ 0x7ffffffffff then 21 else 20
        else
          if x ≤ 0x3fffffffffff then
            if x ≤ 0x1fffffffffff then 19 else 18
          else
            if x ≤ 0x7fffffffffff then 17 else 16
    else
      if x ≤ 0xffffffffffffff then
        if x ≤ 0xfffffffffffff then
          if x ≤ 0x3ffffffffffff then
            if x ≤ 0x1ffffffffffff then 15 else 14
          else
            if x ≤ 0x7ffffffffffff then 13 else 12
        else
          if x ≤ 0x3fffffffffffff then
            if x ≤ 0x1fffffffffffff then 11 else 10
          else
            if x ≤ 0x7fffffffffffff then 9 else 8
      else
        if x ≤ 0xfffffffffffffff then
          if x ≤ 0x3ffffffffffffff then
            if x ≤ 0x1ffffffffffffff then 7 else 6
          else
            if x ≤ 0x7ffffffffffffff then 5 else 4
        else
          if x ≤ 0x3fffffffffffffff then
            if x ≤ 0x1fffffffffffffff then 3 else 2
          else
            if x ≤ 0x7fffffffffffffff then 1 else 0

/-- simple_string_view.hpp 13–121 simple_string_view: the memory, where it begins and its length -/
structure View where
  mem : List Nat
  begin_ : Nat
  len : Nat

/-- simple_string_view.hpp 70–74 the constructor from a pointer and a length -/
def View.ofLen (mem : List Nat) (p len : Nat) : View := ⟨mem, p, len⟩

/-- simple_string_view.hpp 65–69 the constructor from two pointers; strf_def.hpp 368–372 safe_cast_size_t: a negative distance becomes zero -/
def View.ofRange (mem : List Nat) (p q : Nat) : View := ⟨mem, p, ((q : Int) - p).toNat⟩

/-- simple_string_view.hpp 82–87 the constructor from a pointer to a null-terminated string -/
def View.ofCstr (mem : List Nat) (p : Nat) : Option View := (strLength mem p).map fun n => ⟨mem, p, n⟩

/-- the code units of the string: `[begin(), end())` -/
def View.units (v : View) : List Nat := (v.mem.drop v.begin_).take v.len

/-- simple_string_view.hpp 123–132 operator== -/
def View.eq (a b : View) : Option Bool := if a.len ≠ b.len then some false else strEqual a.mem a.begin_ b.mem b.begin_ a.len

/-- simple_string_view.hpp 148–157 operator!= -/
def View.ne (a b : View) : Option Bool := if a.len ≠ b.len then some true else (strEqual a.mem a.begin_ b.mem b.begin_ a.len).map (!·)

/-- What an algorithm of the standard library does with an output iterator, `*it = x; ++it` or `*it++ = x` for each `x`: iterator.hpp 28–41: the operators `*` and
`++` do nothing, and `=` calls put (destination.hpp 252–264). -/
def copyToIterator {α σ : Type} (D : Dest α σ) : List α → σ → Option σ
  | [], s => some s
  | x :: xs, s => (Strf.Dest.put D s x).bind (copyToIterator D xs)

/-- iterator.hpp 42–44 failed() -/
def iteratorFailed {α σ : Type} (D : Dest α σ) (s : σ) : Bool := !D.good s

end Strf.Lib

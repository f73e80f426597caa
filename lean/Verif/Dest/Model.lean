/-
Model of `strf::output_buffer<T,0>` / `strf::destination` (include/strf/destination.hpp) and of the functions
that write through it.

A destination is a state `σ` with a window `[buffer_ptr, buffer_end)` into which users may store directly.
`none` is undefined behaviour: a store outside that window (or outside the underlying memory), or a loop that
does not terminate (fuel exhausted).
-/
namespace Strf.Dest

/-- destination.hpp:62-230 `output_buffer<T,0>`: what a user of the class, or the virtual functions, can do.
* `space`   = `buffer_end() - buffer_ptr()` (l.95-104)
* `good`    = `good()` (l.105)
* `poke xs` = store `xs` from `buffer_ptr()` on and `advance` past them (l.109-130); `none` if it does not fit
* `recycle` = virtual `recycle()` (l.146)
* `doWrite` = virtual `do_write(data, count)` (l.206) -/
structure Dest (α σ : Type) where
  space : σ → Nat
  good : σ → Bool
  poke : σ → List α → Option σ
  recycle : σ → σ
  doWrite : σ → List α → Option σ

variable {α σ : Type}

/-- destination.hpp:132-140 `ensure(s)`: recycle if fewer than `s` units are free. The assertion after it
(that `s` units are then available) is not part of the behaviour; a later `poke` that does not fit is `none`. -/
abbrev ensure (D : Dest α σ) (s : σ) (n : Nat) : σ :=
  if n > D.space s then D.recycle s else s

/-- destination.hpp:141-145 `flush()`. -/
abbrev flush (D : Dest α σ) (s : σ) : σ := D.recycle s

/-- destination.hpp:159-177 `write(data, count)`; a negative count is the same as an empty list. -/
def write (D : Dest α σ) (s : σ) (xs : List α) : Option σ :=
  if xs.length > 0 then
    if xs.length ≤ D.space s then D.poke s xs else D.doWrite s xs
  else some s

/-- destination.hpp:220-250 the default `do_write`: copy what fits, flush, repeat while good.
`fuel` bounds the number of turns. -/
def baseDoWrite (D : Dest α σ) : Nat → σ → List α → Option σ
  | 0, _, _ => none
  | fuel + 1, s, xs =>
    let sub := if xs.length ≤ D.space s then xs.length else D.space s
    match D.poke s (xs.take sub) with
    | none => none
    | some s1 =>
      let rest := xs.drop sub
      if rest.length = 0 then some s1
      else
        let s2 := flush D s1
        if D.good s2 then baseDoWrite D fuel s2 rest else some s2

/-- destination.hpp:252-264 `put(dst, c)`; also `output_buffer_iterator::operator=` (iterator.hpp:38-41). -/
def put (D : Dest α σ) (s : σ) (c : α) : Option σ :=
  if D.space s ≠ 0 then D.poke s [c]
  else D.poke (flush D s) [c]

/-- output_buffer_functions.hpp:64-79: the `while (dst.good())` loop of `write_fill_continuation`. -/
def fillLoop (D : Dest α σ) (c : α) : Nat → σ → Nat → Option σ
  | 0, _, _ => none
  | fuel + 1, s, n =>
    if D.good s then
      let sp := D.space s
      if n ≤ sp then D.poke s (List.replicate n c)
      else
        match D.poke s (List.replicate sp c) with
        | none => none
        | some s1 => fillLoop D c fuel (flush D s1) (n - sp)
    else some s

/-- output_buffer_functions.hpp:53-80 `write_fill_continuation(dst, count, ch)`. -/
def fillContinuation (D : Dest α σ) (s : σ) (n : Nat) (c : α) : Option σ :=
  let sp := D.space s
  match D.poke s (List.replicate sp c) with
  | none => none
  | some s1 => fillLoop D c (n + 1) (flush D s1) (n - sp)

/-- output_buffer_functions.hpp:82-94 `write_fill(dst, count, ch)` (count is signed). -/
def writeFill (D : Dest α σ) (s : σ) (count : Int) (c : α) : Option σ :=
  if count > 0 then
    if count ≤ D.space s then D.poke s (List.replicate count.toNat c)
    else fillContinuation D s count.toNat c
  else some s

/-- output_buffer_functions.hpp:18-39 `output_buffer_interchar_copy` between different character types (`f`
converts one character): the `do … while (dst.good())` loop. -/
def intercharLoop {β : Type} (D : Dest α σ) (f : β → α) : Nat → σ → List β → Option σ
  | 0, _, _ => none
  | fuel + 1, s, xs =>
    let sp := D.space s
    if sp ≥ xs.length then D.poke s (xs.map f)
    else
      match D.poke s ((xs.take sp).map f) with
      | none => none
      | some s1 =>
        let s2 := flush D s1
        if D.good s2 then intercharLoop D f fuel s2 (xs.drop sp) else some s2

/-- output_buffer_functions.hpp:18-39 `output_buffer_interchar_copy`. -/
def intercharCopy {β : Type} (D : Dest α σ) (f : β → α) (s : σ) (xs : List β) : Option σ :=
  if xs.length > 0 then intercharLoop D f (xs.length + 1) s xs else some s

/-- destination.hpp 55–260: The operations a user can perform on a destination. `raw n xs` is `ensure(n)` followed by storing the
`xs.length ≤ n` characters `xs` directly at `buffer_ptr()` and advancing: what most printers do. -/
inductive Op (α : Type) where
  | write (xs : List α)
  | put (c : α)
  | fill (count : Int) (c : α)
  | raw (n : Nat) (xs : List α)
  | flush

/-- destination.hpp 55–260: one user operation -/
def Op.run (D : Dest α σ) (s : σ) : Op α → Option σ
  | .write xs => Dest.write D s xs
  | .put c => Dest.put D s c
  | .fill n c => Dest.writeFill D s n c
  | .raw n xs => D.poke (Dest.ensure D s n) xs
  | .flush => some (Dest.flush D s)

/-- a history of operations -/
def runOps (D : Dest α σ) (s : σ) : List (Op α) → Option σ
  | [] => some s
  | op :: ops =>
    match op.run D s with
    | none => none
    | some s' => runOps D s' ops

/-- the characters an operation asks to be written -/
def Op.text : Op α → List α
  | .write xs => xs
  | .put c => [c]
  | .fill n c => List.replicate n.toNat c
  | .raw _ xs => xs
  | .flush => []

/-- the text of a history: everything in order -/
def textOf (ops : List (Op α)) : List α := (ops.map Op.text).flatten

/-- the caller's side of the contract: a raw store asks for at most 64 units
(`min_space_after_recycle` of `strf::destination`, destination.hpp:26-60) and stores no more than it asked for -/
def Op.Ok : Op α → Prop
  | .raw n xs => xs.length ≤ n ∧ n ≤ 64
  | _ => True

end Strf.Dest

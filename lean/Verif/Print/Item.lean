import Verif.Print.Premeasure
import Verif.Dest.Lawful
/-!
Printable values as the rest of the library sees them: `make_printer` updates the premeasurements and returns a printer,
whose call operator writes to a destination (docs/ref_printable_types.adoc "Printable definition").
-/
namespace Strf.Print
open Strf.Width
open Strf.Dest (Dest Lawful Prints)

variable {σ : Type}

/-- an argument with its format and the facets: what `strf::make_printer<CharT>(pre, facets, arg)` does. -/
structure Item (σ : Type) where
  make : Pre → Option (Pre × (σ → Option σ))

/-- include/strf/detail/printers_tuple.hpp 131–139: the constructor of a printers_tuple makes the printers in order,
with the same premeasurements. -/
def makeAll : List (Item σ) → Pre → Option (Pre × List (σ → Option σ))
  | [], p => some (p, [])
  | it :: its, p =>
    match it.make p with
    | none => none
    | some (p, pr) => (makeAll its p).map fun r => (r.1, pr :: r.2)

/-- include/strf/detail/printable_def.hpp 39–54 call_printers: the printers are called in order, while the destination
is good. -/
def callAll (D : Dest Nat σ) : List (σ → Option σ) → σ → Option σ
  | [], s => some s
  | pr :: prs, s => (pr s).bind fun s => if D.good s then callAll D prs s else some s

/-- include/strf/detail/printable_def.hpp 28–37 print_one_printable: the value is printed without premeasurements.
Simplification: a printable definition may have a static `print` function that is called instead; those of strf do the
same as the printer; those of the user's: Direct/Model.lean. -/
def Item.print (it : Item σ) (s : σ) : Option σ :=
  match it.make .nothing with
  | none => none
  | some (_, pr) => pr s

/-- include/strf/detail/printable_def.hpp 56–72 print_printables -/
def printAll (D : Dest Nat σ) : List (Item σ) → σ → Option σ
  | [], s => some s
  | it :: its, s => (it.print s).bind fun s => if D.good s then printAll D its s else some s

/-- include/strf/measure.hpp 44–73 measure for width only: stops when there is no remaining width -/
def measureWidth : List (Item σ) → Pre → Option Pre
  | [], p => some p
  | it :: its, p =>
    if p.hasRemaining then
      match it.make p with
      | none => none
      | some (p, _) => measureWidth its p
    else some p

/-- include/strf/measure.hpp 83–96 measure when the size is demanded: the printers are made in the order in which the
compiler evaluates the arguments of `do_nothing_with`, which is unspecified: `its` are the items in that order. -/
def measureSize (its : List (Item σ)) (p : Pre) : Option Pre := (makeAll its p).map (·.1)

/-! ## What is expected of an item -/

/-- the values of a width_accumulator -/
def Acc.Ok (a : Acc) : Prop := 0 ≤ a.width ∧ a.width ≤ wmax ∧ CInt.InI32 a.limit

/-- there is room in the accumulated width: either for `r` more; or for `c` more when it is, or has reached, the limit.
And the limit is at most `B`. -/
def Pre.Room (p : Pre) (r c B : Int) : Prop :=
  ∀ a, p.acc = some a → a.Ok ∧ a.limit ≤ B ∧ (a.width + r ≤ wmax ∨ max a.width a.limit + c ≤ wmax)

/-- `p'` is `p` after adding a text of `n` code units and the width `w`; the accumulated width may be any number in
between if it reaches the limit, but no more than `c` above it -/
def Pre.Grown (p p' : Pre) (n : Nat) (w c : Int) : Prop :=
  p'.size = p.size.map (· + n) ∧ (p.acc = none → p'.acc = none) ∧
  ∀ a, p.acc = some a → ∃ a', p'.acc = some a' ∧ a'.limit = a.limit ∧ a.width ≤ a'.width ∧ a'.width ≤ a.width + w ∧
    a'.width ≤ max a.width a.limit + c ∧
    (a.width + w ≤ a.limit → a'.width = a.width + w) ∧ (a.limit ≤ a.width + w → a.limit ≤ a'.width)

/-- what an item stands for: a text, its width (in 1/65536 of a column), how much the accumulated width must stay
below its maximum for the width calculations not to overflow, and how much the accumulated width may exceed the limit -/
structure Meaning where
  text : List Nat
  width : Int
  room : Int
  cost : Int

/-- The item stands for the text `m.text` of width `m.width`: whatever is premeasured (with a limit of the width of at
most `B`), its printer writes exactly that text to the destination, without undefined behaviour (asking, if `τ`, for no more
room than it needs), the size it adds to the
premeasurements is the number of code units and the width is its width. -/
def Item.Means (τ : Bool) (D : Dest Nat σ) (Rep : σ → List Nat → Prop) (B : Int) (it : Item σ) (m : Meaning) : Prop :=
  0 ≤ m.width ∧ m.width ≤ m.room ∧ 0 ≤ m.cost ∧ ∀ p : Pre, p.Room m.room m.cost B →
    ∃ p' pr, it.make p = some (p', pr) ∧ Prints τ D Rep pr m.text ∧ p.Grown p' m.text.length m.width m.cost

variable {D : Dest Nat σ} {Rep : σ → List Nat → Prop} {τ : Bool}

theorem Pre.Grown.refl (p : Pre) : p.Grown p 0 0 0 := by
  refine ⟨by cases p.size <;> simp, id, ?_⟩
  intro a ha
  exact ⟨a, ha, rfl, by omega, by omega, by omega, by omega, by omega⟩

theorem Pre.Grown.trans {p q r : Pre} {m n : Nat} {v w c d : Int} (hw : 0 ≤ w) (hc : 0 ≤ c)
    (h1 : p.Grown q m v c) (h2 : q.Grown r n w d) : p.Grown r (m + n) (v + w) (c + d) := by
  obtain ⟨s1, n1, a1⟩ := h1
  obtain ⟨s2, n2, a2⟩ := h2
  refine ⟨?_, fun h => n2 (n1 h), ?_⟩
  · rw [s2, s1]; cases p.size <;> simp; omega
  · intro a ha
    obtain ⟨b, hb, l1, x1, y1, z1, u1, d1⟩ := a1 a ha
    obtain ⟨c, hc, l2, x2, y2, z2, u2, d2⟩ := a2 b hb
    refine ⟨c, hc, l2.trans l1, by omega, by omega, by omega, ?_, ?_⟩
    · intro h; rw [l1] at u2; rw [u2 (by omega)]; have := u1 (by omega); omega
    · intro h
      rw [l1] at d2 u2
      by_cases hh : a.limit ≤ a.width + v
      · have := d1 hh; omega
      · have := u1 (by omega); exact d2 (by omega)

theorem Pre.Grown.room {p q : Pre} {n : Nat} {v r w B c d : Int} (hw : 0 ≤ w) (hc : 0 ≤ c) (hd : 0 ≤ d) (hv : v ≤ r)
    (h1 : p.Grown q n v c) (h : p.Room (r + w) (c + d) B) : q.Room w d B := by
  intro b hb
  obtain ⟨_, n1, a1⟩ := h1
  cases ha : p.acc with
  | none => rw [n1 ha] at hb; cases hb
  | some a =>
    obtain ⟨b', hb', l1, x1, y1, z1, _, _⟩ := a1 a ha
    rw [hb'] at hb; cases hb
    obtain ⟨⟨k1, k2, k3⟩, k4, k5⟩ := h a ha
    exact ⟨⟨by omega, by omega, l1 ▸ k3⟩, by omega, by omega⟩

theorem Pre.Room.mono {p : Pre} {v w B c d : Int} (h : p.Room w d B) (hv : v ≤ w) (hc : c ≤ d) : p.Room v c B := by
  intro a ha; have := h a ha; exact ⟨this.1, this.2.1, by omega⟩

theorem Item.Means.mono {B B' : Int} {it : Item σ} {m : Meaning} (h : it.Means τ D Rep B m) (hB : B' ≤ B) :
    it.Means τ D Rep B' m :=
  ⟨h.1, h.2.1, h.2.2.1, fun p hp => h.2.2.2 p (fun a ha => ⟨(hp a ha).1, by have := (hp a ha).2.1; omega, (hp a ha).2.2⟩)⟩

/-- the items of a list stand for the texts and widths of another -/
inductive AllMean (τ : Bool) (D : Dest Nat σ) (Rep : σ → List Nat → Prop) (B : Int) : List (Item σ) → List Meaning → Prop
  | nil : AllMean τ D Rep B [] []
  | cons {it its m ms} : it.Means τ D Rep B m → AllMean τ D Rep B its ms → AllMean τ D Rep B (it :: its) (m :: ms)

theorem Item.Means.weaken {B : Int} {it : Item σ} {m : Meaning} (h : it.Means τ D Rep B m) : it.Means false D Rep B m :=
  ⟨h.1, h.2.1, h.2.2.1, fun p hp => by
    obtain ⟨p', pr, e, hp, hg⟩ := h.2.2.2 p hp
    exact ⟨p', pr, e, hp.weaken, hg⟩⟩

theorem AllMean.weaken {B : Int} {its : List (Item σ)} {ms : List Meaning} (h : AllMean τ D Rep B its ms) :
    AllMean false D Rep B its ms := by
  induction h with
  | nil => exact .nil
  | cons h1 _ ih => exact .cons h1.weaken ih

/-- the concatenation of the texts, and the sum of the widths -/
def total : List Meaning → Meaning
  | [] => ⟨[], 0, 0, 0⟩
  | m :: ms => ⟨m.text ++ (total ms).text, m.width + (total ms).width, m.room + (total ms).room,
      m.cost + (total ms).cost⟩

theorem AllMean.nonneg {B : Int} {its : List (Item σ)} {ms : List Meaning} (h : AllMean τ D Rep B its ms) :
    0 ≤ (total ms).width ∧ (total ms).width ≤ (total ms).room ∧ 0 ≤ (total ms).cost := by
  induction h with
  | nil => simp [total]
  | cons h1 _ ih => have := h1.1; have := h1.2.1; have := h1.2.2.1; simp only [total]; omega

theorem AllMean.mono {B B' : Int} {its : List (Item σ)} {ms : List Meaning} (h : AllMean τ D Rep B its ms) (hB : B' ≤ B) :
    AllMean τ D Rep B' its ms := by
  induction h with
  | nil => exact .nil
  | cons h1 _ ih => exact .cons (h1.mono hB) ih

/-- printing `p` and then, if the destination is good, `q` -/
theorem Prints.guarded (L : Lawful D Rep) {p q : σ → Option σ} {x y : List Nat} (hp : Prints τ D Rep p x)
    (hq : Prints τ D Rep q y) : Prints τ D Rep (fun s => (p s).bind fun s => if D.good s then q s else some s) (x ++ y) := by
  refine Prints.comp hp ?_
  intro s t h
  by_cases hg : D.good s = true
  · simp only [hg, if_true]
    obtain ⟨s', e, r, g⟩ := hq s t h
    exact ⟨s', e, r, g⟩
  · simp only [hg]
    exact ⟨s, rfl, L.bad s t y h (by simpa using hg), .of_bad (by simpa using hg) id⟩

theorem Item.Means.prints {B : Int} {it : Item σ} {m : Meaning} (h : it.Means τ D Rep B m) :
    Prints τ D Rep it.print m.text := by
  obtain ⟨p', pr, e, hp, _⟩ := h.2.2.2 .nothing (by intro a ha; cases ha)
  unfold Item.print
  rw [e]
  exact hp

theorem AllMean.prints (L : Lawful D Rep) {B : Int} {its : List (Item σ)} {ms : List Meaning}
    (h : AllMean τ D Rep B its ms) : Prints τ D Rep (printAll D its) (total ms).text := by
  induction h with
  | nil => exact Prints.nil
  | cons h1 hs ih => exact Prints.guarded L h1.prints ih

/-- a tuple of items is an item -/
theorem AllMean.make (L : Lawful D Rep) {B : Int} {its : List (Item σ)} {ms : List Meaning} (h : AllMean τ D Rep B its ms) :
    ∀ p : Pre, p.Room (total ms).room (total ms).cost B → ∃ p' prs, makeAll its p = some (p', prs) ∧
      Prints τ D Rep (callAll D prs) (total ms).text ∧
      p.Grown p' (total ms).text.length (total ms).width (total ms).cost := by
  induction h with
  | nil =>
    intro p _
    exact ⟨p, [], rfl, Prints.nil, Pre.Grown.refl p⟩
  | @cons it its m ms h1 hs ih =>
    intro p hp
    have h0 := h1.1
    have h2 := h1.2.1
    have h3 := h1.2.2.1
    have hn := hs.nonneg
    simp only [total] at hp ⊢
    obtain ⟨q, pr, e1, p1, g1⟩ := h1.2.2.2 p (hp.mono (by omega) (by omega))
    obtain ⟨r, prs, e2, p2, g2⟩ := ih q (g1.room (by omega) h3 (by omega) h2 hp)
    refine ⟨r, pr :: prs, ?_, Prints.guarded L p1 p2, ?_⟩
    · unfold makeAll; rw [e1]; dsimp only; rw [e2]; rfl
    · rw [List.length_append]; exact Pre.Grown.trans (by omega) h3 g1 g2

theorem total_perm {ms ms' : List Meaning} (h : ms.Perm ms') :
    (total ms).width = (total ms').width ∧ (total ms).room = (total ms').room ∧ (total ms).cost = (total ms').cost ∧
      (total ms).text.length = (total ms').text.length := by
  induction h with
  | nil => simp
  | cons _ _ ih => simp only [total, List.length_append]; omega
  | swap => simp only [total, List.length_append]; omega
  | trans _ _ h1 h2 => omega

end Strf.Print

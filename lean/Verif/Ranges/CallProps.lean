import Verif.Ranges.Props
import Verif.Program.Laws
/-!
# C92: ranges as arguments of a call

The printers of Ranges/Model.lean, made with the facets of a call, are those of the arguments `Arg.range` and `Arg.separatedRange` of C73. With that: what a range prints.
-/
namespace Strf.Ranges
open Strf.Program
open Strf.Format (CharT IntCall FloatCall StringCall intChain)
open Strf.Print (Item Meaning total)
open Strf.Dest (Dest Lawful Prints)

variable {σ α : Type} (D : Dest Nat σ) (T : CharT) (sg : CharT → Bool)

/-- range.hpp 252–327, 612–621 fmt_range of integers: the format functions give one format, `fmt_`, that each element gets (`value_fmt_type_adapted_{{*it}, fmt_}`, 312, 325) -/
def fmtRangeInts (fp : Pack) (t : IntTy) (cs : List IntCall) (g : Given Int) : Option (Item σ) :=
  (intChain cs).map fun v => (rangePrinter D (pure fun x =>
    v.item D ((theCharset fp (intCharsetTag t v) T).name.charset D) (theCase fp (.int t))
      (fun b => ⟨(theNumpunct fp (.int t) b).grouping, (theNumpunct fp (.int t) b).thousandsSep⟩) (t.val x)) g.range).item

theorem items_map {fp : Pack} {f : α → Arg} {F : α → Item σ} {xs : List α} (h : ∀ x ∈ xs, (f x).item D T sg fp = some (F x)) :
    items D T sg fp (xs.map f) = some (xs.map F) := by
  induction xs with
  | nil => rfl
  | cons x xs ih =>
    simp only [List.map_cons, items]
    rw [h x (by simp), ih fun y hy => h y (by simp [hy])]
    rfl

/-- C92: the range made of `g` is, as an argument of a call, the range of the elements that are meant; so is a separated range, with the separator up to its zero. -/
theorem range_argument {fp : Pack} {f : α → Arg} {F : α → Item σ} {g : Given α} (hg : g.Valid) (hF : ∀ x ∈ g.elements, (f x).item D T sg fp = some (F x)) :
    (Arg.range (g.elements.map f)).item D T sg fp = some (rangePrinter D (pure F) g.range).item ∧
    ∀ (mem : List Nat) (p : Nat) (sep : List Nat), p ≤ mem.length → IsCstr mem p sep → separator mem p = some sep ∧
      (Arg.separatedRange false sep (g.elements.map f)).item D T sg fp = some (separatedPrinter D ((theCalc fp (.string T)).on (sg T) (theCharset fp (.string T) T).name.cs) sep (pure F) g.range).item ∧
      (Arg.separatedRange true sep (g.elements.map f)).item D T sg fp = some (fmtSeparatedPrinter D ((theCalc fp (.string T)).on (sg T) (theCharset fp (.string T) T).name.cs) sep (pure F) g.range).item := by
  refine ⟨?_, fun mem p sep hp hs => ⟨(separator_exact mem p sep hp).mpr hs, ?_, ?_⟩⟩
  · unfold Arg.item
    rw [items_map D T sg hF, range_elements D F hg]; rfl
  · unfold Arg.item
    rw [items_map D T sg hF, (separated_elements D _ sep F hg).1]; rfl
  · unfold Arg.item
    rw [items_map D T sg hF, (separated_elements D _ sep F hg).2]; rfl

variable {T}

/-- C92: what a range prints: what each of its elements prints alone, one after the other. -/
theorem range_law {B : Int} {fp : Pack} {f : α → Arg} {g : Given α} {ms : List Meaning} (h : (Call.mk [] fp [.range (g.elements.map f)] false).Means T B ms) :
    ∃ xs, EachWrites T fp (g.elements.map f) xs ∧ Writes T ⟨[], fp, [.range (g.elements.map f)], false⟩ xs.flatten := by
  obtain ⟨K, m, ht, hK, rfl, hd⟩ := sole rfl h
  have w := means_writes h
  cases hd with
  | @range _ _ _ ms hs =>
    refine ⟨_, each_writes (by simpa [Call.pack] using ht) (by simpa [Call.pack] using hK) (by simpa [Call.pack] using hs), ?_⟩
    have key : ∀ l : List Meaning, (total l).text = (l.map (·.text)).flatten := by
      intro l; induction l with
      | nil => rfl
      | cons m l ih => simp [total, ih]
    have e : (total [total ms]).text = (total ms).text := by simp [total]
    simpa [Call.text, e, key] using w

variable (T)

/-- C92: `fmt_range(xs).f().g()…` of integers: the format functions apply to each element: it is the range of the elements with those format functions. -/
theorem fmt_range_ints {fp : Pack} (t : IntTy) (cs : List IntCall) {g : Given Int} (hg : g.Valid) (hc : (intChain cs).isSome) :
    fmtRangeInts D T fp t cs g = (Arg.range (g.elements.map (Arg.int t cs))).item D T sg fp := by
  obtain ⟨v, hv⟩ := Option.isSome_iff_exists.mp hc
  unfold fmtRangeInts
  rw [hv]
  refine ((range_argument D T sg hg ?_).1).symm
  intro x _
  simp [Arg.item, hv]

/-! ## Examples -/

/-- a function that counts its calls, and returns the sum of the count and the element -/
def counting : Nat → Int → Nat × Item (Dest.Maker Nat) := fun n x => (n + 1, Print.intItem Dest.Maker.dest ⟨true, 4, x + n⟩)

/-- The elements are 10, 20 and 30, of an array of five; the function is called three times. -/
example : ((rangePrinter Dest.Maker.dest counting (Given.iterators [5, 10, 20, 30, 40] 1 4).range).print 7 (Dest.Maker.init (List.replicate 64 0))).map
    (fun z => ((Dest.Maker.finishE true z.1).2, z.2)) = some (some (Print.txt "172839"), 10) := by decide +kernel

/-- … with `reserve_calc` six times: the size is that of what it returns the first times -/
example : ((rangePrinter Dest.Maker.dest counting (Given.iterators [5, 10, 20, 30, 40] 1 4).range).measure 7 ⟨some 0, none⟩).map (fun z => (z.1.size, z.2)) = some (some 6, 10) := by
  decide +kernel

/-- a string literal is an array, of which the zero is an element -/
example : (Given.array (Print.txt "ab" ++ [0])).elements = [0x61, 0x62, 0] ∧ (Given.iterators [1, 2, 3] 1 3).Valid ∧ ¬ (Given.iterators [1, 2, 3] 3 1).Valid ∧
    separator [0x2C, 0x20, 0, 0x41] 0 = some [0x2C, 0x20] ∧ separator [0x2C, 0x20] 0 = none := by decide +kernel

example : IsCstr [0x2C, 0x20, 0, 0x41] 0 [0x2C, 0x20] := ⟨[0x41], rfl, by decide⟩

/-- the hypothesis of `function_called_once` is met by the function that counts -/
example (w : Nat) (xs : List Int) (hx : ∀ x ∈ xs, -1000 ≤ x ∧ x ≤ 1000) (hw : w + xs.length < 1000000) :
    ∃ ms, Print.AllMean true Dest.Maker.dest (fun s t => Dest.Maker.Rep s t) Width.wmax (returned counting w xs) ms := by
  induction xs generalizing w with
  | nil => exact ⟨[], .nil⟩
  | cons x xs ih =>
    simp only [List.length_cons] at hw
    obtain ⟨ms, hm⟩ := ih (w + 1) (fun y hy => hx y (by simp [hy])) (by omega)
    have := hx x (by simp)
    have hok : IntPrinter.Spec.IntVal.Ok ⟨Bool.true, 4, x + w⟩ := by
      unfold IntPrinter.Spec.IntVal.Ok; simp; omega
    exact ⟨_ :: ms, .cons (Print.intItem_means Dest.Maker.lawful Width.wmax (fun c => [c]) .lower _ hok) hm⟩

end Strf.Ranges

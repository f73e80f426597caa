import Verif.Float.Model
import Verif.IntPrinter.Props
/-
Lemmas: print_amplified_integer writes an integer followed by zeros, in groups.
-/
namespace Strf.Float
open Strf.IntDigits Strf.IntDigits.Spec Strf.Numpunct Strf.Numpunct.Spec Strf.Print
open Strf.Dest (Dest Lawful Prints)

variable {σ : Type} {D : Dest Nat σ} {Rep : σ → List Nat → Prop}

theorem prints_congr {p q : σ → Option σ} {x : List Nat} (h : Prints τ D Rep p x) (e : ∀ s, q s = p s) : Prints τ D Rep q x := by
  have : q = p := funext e
  rw [this]; exact h

/-- groups of the digits `ds` and as many zeros as needed, each after a separator -/
def padText (sep : List Nat) : List Nat → List Nat → List Nat
  | [], _ => []
  | n :: ns, ds => sep ++ (ds.take n ++ List.replicate (n - ds.length) 0x30) ++ padText sep ns (ds.drop n)

theorem padText_eq (sep : List Nat) (ns ds : List Nat) (z : Nat) (h : ns.sum = ds.length + z) :
    (chop ns (ds ++ List.replicate z 0x30)).flatMap (sep ++ ·) = padText sep ns ds := by
  induction ns generalizing ds z with
  | nil => simp [chop, padText]
  | cons n ns ih =>
    rw [List.sum_cons] at h
    simp only [chop, padText, List.flatMap_cons]
    rw [List.take_append, List.drop_append, List.take_replicate, List.drop_replicate, ih _ _ (by simp; omega)]
    have : min (n - ds.length) z = n - ds.length := by omega
    rw [this]

theorem padText_append (sep : List Nat) (ns ms ds : List Nat) :
    padText sep (ns ++ ms) ds = padText sep ns ds ++ padText sep ms (ds.drop ns.sum) := by
  induction ns generalizing ds with
  | nil => simp [padText]
  | cons n ns ih => simp [padText, ih, List.drop_drop]

theorem putGroup_prints (L : Lawful D Rep) (sep xs : List Nat) (h : sep.length + xs.length ≤ 64) :
    Prints τ D Rep (putGroup D sep xs) (sep ++ xs) :=
  L.prints_raw (τ := τ) (sep.length + xs.length) (sep ++ xs) (by simp) h

theorem zeroGroups_prints (L : Lawful D Rep) (sep : List Nat) (g n : Nat) (h : sep.length + g ≤ 64) :
    Prints τ D Rep (zeroGroups D sep g n) (padText sep (List.replicate n g) []) := by
  induction n with
  | zero => exact Prints.nil
  | succ n ih =>
    rw [List.replicate_succ, padText]
    have := Prints.comp (putGroup_prints L sep (List.replicate g 0x30) (by simpa using h)) ih
    simpa [zeroGroups] using this

theorem zeroLow_prints (L : Lawful D Rep) (sep : List Nat) (h : sep.length ≤ 32) (low : Nat) :
    Prints τ D Rep (zeroLow D sep low) (padText sep (lowList low) []) := by
  induction low using Nat.strongRecOn with
  | _ low ih =>
    rw [lowList]
    by_cases h0 : low = 0
    · rw [dif_pos h0]
      refine prints_congr Prints.nil fun s => ?_
      rw [zeroLow, dif_pos h0]
    · rw [dif_neg h0, padText]
      have := Prints.comp (putGroup_prints L sep (List.replicate (highestGroup low) 0x30)
        (by simp [highestGroup]; omega)) (ih (popHigh low) (by simp [popHigh]; omega))
      refine prints_congr (by simpa using this) fun s => ?_
      rw [zeroLow, dif_neg h0]

theorem smallZeros_prints (L : Lawful D Rep) (sep g n : Nat) :
    Prints τ D Rep (smallZeros D sep g n) (padText [sep] (List.replicate n g) []) := by
  induction n with
  | zero => exact Prints.nil
  | succ n ih =>
    rw [List.replicate_succ, padText]
    have := Prints.comp (L.prints_put (τ := τ) sep) (Prints.comp (L.prints_fill (τ := τ) (g : Int) 0x30) ih)
    simpa [smallZeros] using this

theorem digitGroups_ok (L : Lawful D Rep) (sep : List Nat) (g : Nat) (h : sep.length + g ≤ 64) (n : Nat) :
    ∀ (ds : List Nat) (s : σ) (t : List Nat), Rep s t →
      ∃ s' k, k ≤ n ∧ digitGroups D sep g n ds s = some (s', ds.drop (k * g), n - k) ∧ k * g ≤ ds.length ∧
        (n - k = 0 ∨ (ds.drop (k * g)).length < g) ∧
        Rep s' (t ++ padText sep (List.replicate k g) ds) ∧ Dest.After τ D s s' (padText sep (List.replicate k g) ds).length := by
  induction n with
  | zero => intro ds s t hr; exact ⟨s, 0, by omega, by simp [digitGroups], by simp, by simp, by simpa [padText] using hr, .refl s⟩
  | succ n ih =>
    intro ds s t hr
    rw [digitGroups]
    by_cases hd : ds.length ≥ g
    · rw [if_pos hd]
      obtain ⟨s1, e1, r1, g1⟩ := putGroup_prints L sep (ds.take g) (by simp; omega) s t hr
      obtain ⟨s2, k, hk, e2, hl, hc, r2, g2⟩ := ih (ds.drop g) s1 _ r1
      have hkg : (k + 1) * g = g + k * g := by rw [Nat.add_mul]; omega
      refine ⟨s2, k + 1, by omega, ?_, ?_, ?_, ?_, g1.trans g2 ?_⟩
      · rw [e1, Option.bind_some, e2, List.drop_drop, hkg, show n + 1 - (k + 1) = n - k by omega]
      · rw [List.length_drop] at hl; omega
      · rw [hkg, ← List.drop_drop, show n + 1 - (k + 1) = n - k by omega]; exact hc
      · rw [List.replicate_succ, padText, show g - ds.length = 0 by omega]
        simpa [List.append_assoc] using r2
      · rw [List.replicate_succ, padText, show g - ds.length = 0 by omega]
        simp only [List.length_append, List.replicate_zero, List.append_nil, List.length_nil]
    · rw [if_neg hd]
      exact ⟨s, 0, by omega, by simp, by simp, .inr (by simp; omega), by simpa [padText] using hr, .refl s⟩

theorem endDigits_prints (L : Lawful D Rep) (big : Bool) (sep : List Nat) (hs : big = false → ∃ u, sep = [u]) (g n : Nat)
    (h : sep.length + g ≤ 64) (hn : 1 ≤ n) (ds : List Nat) (hd : ds.length < g) :
    Prints τ D Rep (endDigits D big sep g n ds) (padText sep (List.replicate n g) ds) := by
  obtain ⟨n, rfl⟩ : ∃ k, n = k + 1 := ⟨n - 1, by omega⟩
  have htake : ds.take g = ds := List.take_of_length_le (by omega)
  have hdrop : ds.drop g = [] := List.drop_eq_nil_of_le (by omega)
  cases big with
  | true =>
    by_cases h0 : ds.length > 0
    · refine prints_congr (p := fun s => (putGroup D sep (ds ++ List.replicate (g - ds.length) 0x30) s).bind (zeroGroups D sep g n)) ?_
        (fun s => by unfold endDigits; rw [if_pos rfl, if_pos h0]; rfl)
      rw [List.replicate_succ, padText, htake, hdrop]
      exact Prints.comp (putGroup_prints L _ _ (by simp; omega)) (zeroGroups_prints L sep g n h)
    · have : ds = [] := List.length_eq_zero_iff.mp (by omega)
      subst this
      exact prints_congr (zeroGroups_prints L sep g (n + 1) h) (fun s => by unfold endDigits; rw [if_pos rfl, if_neg h0])
  | false =>
    obtain ⟨u, rfl⟩ := hs rfl
    by_cases h0 : ds.length > 0
    · refine prints_congr (p := fun s => (putGroup D [u] ds s).bind fun s =>
          (Dest.writeFill D s ((g : Int) - ds.length) 0x30).bind (smallZeros D u g n)) ?_
        (fun s => by unfold endDigits; rw [if_neg (by simp), if_pos h0]; rfl)
      rw [List.replicate_succ, padText, htake, hdrop]
      have := Prints.comp (putGroup_prints L [u] ds (by simp at h ⊢; omega))
        (Prints.comp (L.prints_fill (τ := τ) ((g : Int) - ds.length) 0x30) (smallZeros_prints L u g n))
      rw [show ((g : Int) - ds.length).toNat = g - ds.length by omega] at this
      simpa [List.append_assoc] using this
    · have : ds = [] := List.length_eq_zero_iff.mp (by omega)
      subst this
      exact prints_congr (smallZeros_prints L u g (n + 1)) (fun s => by unfold endDigits; rw [if_neg (by simp), if_neg h0]; rfl)

theorem lowDigits_ok (L : Lawful D Rep) (sep : List Nat) (h : sep.length ≤ 32) (low : Nat) :
    ∀ (g : Nat) (ds : List Nat) (s : σ) (t : List Nat), g < 32 → Rep s t → 0 < ds.length → ds.length ≤ g + (lowList low).sum →
      ∃ s' ds' g' low' pre, lowDigits D sep g low ds s = some (s', ds', g', low') ∧ 0 < ds'.length ∧ ds'.length ≤ g' ∧ g' < 32 ∧
        Rep s' (t ++ pre) ∧ pre ++ padText sep (g' :: lowList low') ds' = padText sep (g :: lowList low) ds ∧
        Dest.After τ D s s' pre.length := by
  induction low using Nat.strongRecOn with
  | _ low ih =>
    intro g ds s t hg hr hp hle
    rw [lowDigits]
    by_cases hd : ds.length > g
    · rw [if_pos hd]
      by_cases h0 : low = 0
      · subst h0
        rw [lowList] at hle
        simp at hle; omega
      · rw [dif_neg h0]
        have hll : lowList low = highestGroup low :: lowList (popHigh low) := by conv_lhs => rw [lowList, dif_neg h0]
        rw [hll, List.sum_cons] at hle
        obtain ⟨s1, e1, r1, g1⟩ := putGroup_prints L sep (ds.take g) (by simp; omega) s t hr
        obtain ⟨s2, ds', g', low', pre, e2, q1, q2, q3, r2, q4, g2⟩ := ih (popHigh low) (by simp [popHigh]; omega) (highestGroup low)
          (ds.drop g) s1 _ (by simp [highestGroup]; omega) r1 (by simp; omega) (by simp; omega)
        refine ⟨s2, ds', g', low', sep ++ ds.take g ++ pre, by rw [e1, Option.bind_some, e2], q1, q2, q3, ?_, ?_, g1.trans g2 (by simp only [List.length_append])⟩
        · simpa [List.append_assoc] using r2
        · rw [List.append_assoc, q4, hll]
          conv_rhs => rw [padText]
          rw [show g - ds.length = 0 by omega]; simp
    · rw [if_neg hd]
      exact ⟨s, ds, g, low, [], rfl, hp, by omega, hg, by simpa using hr, rfl, .refl s⟩

theorem lowerGroups_prints (L : Lawful D Rep) (sep : List Nat) (h : sep.length ≤ 32) (low : Nat) (ds : List Nat)
    (hl : ds.length ≤ (lowList low).sum) :
    Prints τ D Rep (lowerGroups D sep low ds) (padText sep (lowList low) ds) := by
  intro s t hr
  unfold lowerGroups
  by_cases h0 : ds.length > 0
  · rw [if_pos h0]
    have hlow : low ≠ 0 := by
      rintro rfl
      have e0 : lowList 0 = [] := by rw [lowList]; rfl
      rw [e0, List.sum_nil] at hl; omega
    have hll : lowList low = highestGroup low :: lowList (popHigh low) := by conv_lhs => rw [lowList, dif_neg hlow]
    rw [hll] at hl ⊢
    rw [List.sum_cons] at hl
    obtain ⟨s1, ds', g', low', pre, e1, q1, q2, q3, r1, q4, g1⟩ := lowDigits_ok L sep h (popHigh low) (highestGroup low) ds s t
      (by simp [highestGroup]; omega) hr h0 hl
    rw [e1, Option.bind_some]
    dsimp only
    rw [← q4]
    have hfill : Prints τ D Rep (fun s => if g' > ds'.length then
        D.poke (Dest.ensure D s (g' - ds'.length)) (List.replicate (g' - ds'.length) 0x30) else some s)
        (List.replicate (g' - ds'.length) 0x30) := by
      by_cases hgt : g' > ds'.length
      · simp only [if_pos hgt]
        exact L.prints_raw (τ := τ) _ _ (by simp) (by omega)
      · simp only [if_neg hgt]
        rw [show g' - ds'.length = 0 by omega]
        exact Prints.nil
    have := Prints.comp (putGroup_prints L sep ds' (by omega)) (Prints.comp hfill (zeroLow_prints L sep h low'))
    obtain ⟨s2, e2, r2, g2⟩ := this s1 _ r1
    refine ⟨s2, e2, ?_, g1.trans g2 (by
      rw [padText, List.take_of_length_le (show ds'.length ≤ g' by omega), List.drop_eq_nil_of_le (show ds'.length ≤ g' by omega)]
      simp)⟩
    rw [padText, List.take_of_length_le (show ds'.length ≤ g' by omega), List.drop_eq_nil_of_le (show ds'.length ≤ g' by omega)]
    simpa [List.append_assoc] using r2
  · rw [if_neg h0]
    have : ds = [] := List.length_eq_zero_iff.mp (by omega)
    subst this
    exact zeroLow_prints L sep h low s t hr

/-- what print_amplified_integer writes -/
theorem amplified_prints (L : Lawful D Rep) (big : Bool) (sep : List Nat) (hs : big = false → ∃ u, sep = [u])
    (h : sep.length ≤ 32) (v : Nat) (hv : v < 2 ^ 64) (gs : List Nat) (rep : Bool) (hg : Valid gs rep) (z : Nat) :
    Prints τ D Rep (amplified D big sep v (ctor2 (args gs rep)) (numeral 10 v).length z)
      (grouped sep (split gs rep ((numeral 10 v).length + z)).reverse (text 10 .lower v ++ List.replicate z 0x30)) := by
  have h1 := len_small 10 v (by omega) hv
  have hp := len_pos 10 v (by omega)
  have htl := text_length 10 .lower v
  obtain ⟨d, ed, hr, hh, hm⟩ := distribute_exact gs rep hg ((numeral 10 v).length + z) (by omega)
  have hsum : d.read.sum = (numeral 10 v).length + z := by rw [hr, List.sum_reverse, split, splitFrom_sum]
  rw [← hr, read_cases, grouped_cons]
  rw [read_cases, List.sum_cons, List.sum_append, List.sum_replicate_nat] at hsum
  have hhi : highestGroup d.low < 32 := by simp [highestGroup]; omega
  intro s t hrep
  unfold amplified
  rw [ed, Option.bind_some]
  by_cases hd : (numeral 10 v).length ≤ d.highest
  · rw [if_pos hd]
    have etake : (text 10 .lower v ++ List.replicate z 0x30).take d.highest =
        text 10 .lower v ++ List.replicate (d.highest - (numeral 10 v).length) 0x30 := by
      rw [List.take_append, List.take_of_length_le (by omega), List.take_replicate, htl]
      congr 2
      omega
    have edrop : (text 10 .lower v ++ List.replicate z 0x30).drop d.highest =
        [] ++ List.replicate (z - (d.highest - (numeral 10 v).length)) 0x30 := by
      rw [List.drop_append, List.drop_eq_nil_of_le (by omega), List.drop_replicate, htl]
    rw [etake, edrop, padText_eq sep _ [] _ (by rw [List.sum_append, List.sum_replicate_nat, List.length_nil]; omega), padText_append]
    have q1 : Prints τ D Rep (fun s => pokeField D (Dest.ensure D s (numeral 10 v).length) (numeral 10 v).length (back10 v []))
        (text 10 .lower v) := by
      intro s t h
      have := writeBack_prints (τ := τ) L 10 (by omega) .lower v hv s t h
      unfold writeBack at this
      exact this
    have q2 := L.prints_fill (τ := τ) ((d.highest : Int) - (numeral 10 v).length) 0x30
    rw [show ((d.highest : Int) - (numeral 10 v).length).toNat = d.highest - (numeral 10 v).length by omega] at q2
    have q3 : Prints τ D Rep (fun s => if d.middle ≠ 0 then
        (zeroGroups D sep (highestGroup d.low) d.middle s).bind (zeroLow D sep (popHigh d.low))
        else zeroLow D sep d.low s)
        (padText sep (List.replicate d.middle (highestGroup d.low)) [] ++
          padText sep (lowList (if d.middle ≠ 0 then popHigh d.low else d.low)) []) := by
      by_cases hm0 : d.middle ≠ 0
      · simp only [if_pos hm0]
        exact Prints.comp (zeroGroups_prints L sep _ _ (by omega)) (zeroLow_prints L sep h _)
      · simp only [if_neg hm0]
        have : d.middle = 0 := by omega
        rw [this]
        exact zeroLow_prints L sep h _
    have := Prints.comp q1 (Prints.comp q2 q3)
    obtain ⟨s', e, r, g⟩ := this s t hrep
    refine ⟨s', e, ?_, g.cast (by simp)⟩
    simpa [List.append_assoc] using r
  · rw [if_neg hd]
    have etake : (text 10 .lower v ++ List.replicate z 0x30).take d.highest = (text 10 .lower v).take d.highest :=
      List.take_append_of_le_length (by omega)
    have edrop : (text 10 .lower v ++ List.replicate z 0x30).drop d.highest =
        (text 10 .lower v).drop d.highest ++ List.replicate z 0x30 := List.drop_append_of_le_length (by omega)
    rw [etake, edrop, padText_eq sep _ _ _ (by rw [List.sum_append, List.sum_replicate_nat, List.length_drop]; omega)]
    unfold amplified2
    dsimp only
    rw [back10_ok .lower, List.append_nil, if_neg (by omega)]
    obtain ⟨s1, e1, r1, g1⟩ := L.prints_raw (τ := τ) d.highest ((text 10 .lower v).take d.highest) (by simp; omega) (by omega) s t hrep
    dsimp only at e1
    rw [e1, Option.bind_some]
    by_cases hm0 : d.middle ≠ 0
    · rw [if_pos hm0]
      rw [if_pos hm0] at hsum ⊢
      obtain ⟨s2, k, hk, e2, hkl, hc, r2, g2⟩ := digitGroups_ok L sep (highestGroup d.low) (by omega) d.middle
        ((text 10 .lower v).drop d.highest) s1 _ r1
      rw [e2, Option.bind_some]
      dsimp only
      have esplit : List.replicate d.middle (highestGroup d.low) = List.replicate k (highestGroup d.low) ++
          List.replicate (d.middle - k) (highestGroup d.low) := by
        rw [List.replicate_append_replicate]; congr 1; omega
      rw [esplit, List.append_assoc, padText_append, padText_append]
      simp only [List.sum_replicate_nat]
      generalize hds : ((text 10 .lower v).drop d.highest).drop (k * highestGroup d.low) = ds at *
      have hdl : ds.length + k * highestGroup d.low + d.highest = (numeral 10 v).length := by
        rw [← hds, List.length_drop, List.length_drop, htl]
        rw [List.length_drop, htl] at hkl
        omega
      by_cases hz : d.middle - k = 0
      · rw [if_pos hz, hz]
        have hkm : d.middle = k := by omega
        rw [hkm] at hsum
        obtain ⟨s3, e3, r3, g3⟩ := lowerGroups_prints L sep h (popHigh d.low) ds (by omega) s2 _ r2
        refine ⟨s3, e3, ?_, (g1.trans g2 rfl).trans g3 (by simp [padText]; omega)⟩
        simpa [padText, List.append_assoc] using r3
      · rw [if_neg hz]
        have hlt : ds.length < highestGroup d.low := by rcases hc with hc | hc <;> [exact absurd hc hz; exact hc]
        have := Prints.comp (τ := τ) (endDigits_prints (τ := τ) L big sep hs (highestGroup d.low) (d.middle - k) (by omega) (by omega) ds hlt)
          (zeroLow_prints (τ := τ) L sep h (popHigh d.low))
        obtain ⟨s3, e3, r3, g3⟩ := this s2 _ r2
        have hdn : ds.drop ((d.middle - k) * highestGroup d.low) = [] := by
          apply List.drop_eq_nil_of_le
          have : highestGroup d.low ≤ (d.middle - k) * highestGroup d.low := Nat.le_mul_of_pos_left _ (by omega)
          omega
        rw [hdn]
        refine ⟨s3, e3, ?_, (g1.trans g2 rfl).trans g3 ?_⟩
        · simpa [List.append_assoc] using r3
        · simp only [List.length_append]; omega
    · rw [if_neg hm0]
      rw [if_neg hm0] at hsum ⊢
      have h0 : d.middle = 0 := by omega
      rw [h0] at hsum ⊢
      obtain ⟨s2, e2, r2, g2⟩ := lowerGroups_prints L sep h d.low ((text 10 .lower v).drop d.highest) (by simp; omega) s1 _ r1
      refine ⟨s2, e2, ?_, g1.trans g2 (by simp [padText])⟩
      simpa [padText, List.append_assoc] using r2

end Strf.Float

import Verif.WidthCalc.Lemmas
import Verif.Utf.Props
import Verif.Sbc.Props
/-! Charsets as the width calculators use them, and the loops of str_width and str_width_and_pos over any of them. -/
namespace Strf.WidthCalc
open Strf.Width

/-- The number of code units of a list of characters, each given as (code point, number of units). -/
def ext : List (Nat × Nat) → Nat
  | [] => 0
  | p :: t => p.2 + ext t

/-- `read src` is how the charset reads `src`: its code points, with the number of units that each takes. -/
structure Source.Lawful (S : Source) (Ok : List Nat → Prop) (read : List Nat → List (Nat × Nat)) : Prop where
  okDrop : ∀ {src}, Ok src → ∀ n, Ok (src.drop n)
  scalar : ∀ {src}, Ok src → ∀ p ∈ read src, p.1 ≤ 0x10FFFF ∧ 1 ≤ p.2
  whole : ∀ {src}, Ok src → ext (read src) = src.length
  drop : ∀ {src}, Ok src → ∀ n, read (src.drop (ext ((read src).take n))) = (read src).drop n
  toU32 : ∀ {src}, Ok src → ∀ n, S.toU32 n src =
    some (((read src).take n).map Prod.fst, src.drop (ext ((read src).take n)), decide (n < (read src).length))
  toU32Pos : ∀ {src}, Ok src → ∀ n, S.toU32Pos n src = some (src.drop (ext ((read src).take n)))
  count : ∀ {src}, Ok src → ∀ n, S.count n src = some (min n (read src).length, src.drop (ext ((read src).take n)))

theorem ext_append (a b : List (Nat × Nat)) : ext (a ++ b) = ext a + ext b := by
  induction a with
  | nil => simp [ext]
  | cons p a ih => simp [ext, ih]; omega

theorem length_le_ext {l : List (Nat × Nat)} (h : ∀ p ∈ l, p.1 ≤ 0x10FFFF ∧ 1 ≤ p.2) : l.length ≤ ext l := by
  induction l with
  | nil => simp
  | cons p l ih =>
    have := (h p (by simp)).2
    have := ih fun q hq => h q (by simp [hq])
    simp [ext]; omega

variable {S : Source} {Ok : List Nat → Prop} {read : List Nat → List (Nat × Nat)}

/-- The code points of a text. -/
abbrev cps (read : List Nat → List (Nat × Nat)) (src : List Nat) : List Nat := (read src).map Prod.fst

theorem Source.Lawful.cp (L : S.Lawful Ok read) {src : List Nat} (h : Ok src) : ∀ c ∈ cps read src, c ≤ 0x10FFFF := by
  intro c hc
  obtain ⟨p, hp, rfl⟩ := List.mem_map.1 hc
  exact (L.scalar h p hp).1

theorem Source.Lawful.length_le (L : S.Lawful Ok read) {src : List Nat} (h : Ok src) :
    (read src).length ≤ src.length := by
  have := length_le_ext (L.scalar h)
  rw [L.whole h] at this
  exact this

theorem strWidthLoop_eq (L : S.Lawful Ok read) : ∀ (fuel : Nat) (src : List Nat) (remaining : Int) (state : Nat)
    (before : List Nat), Ok src → Inv (before.map gcb) state → 0 ≤ remaining → (read src).length < fuel →
    ∃ r, strWidthLoop S fuel src remaining state = some r ∧
      r = max 0 (remaining - columnsAfter before (cps read src) * 65536) := by
  intro fuel
  induction fuel with
  | zero => intro src _ _ _ _ _ _ h; omega
  | succ fuel ih =>
    intro src remaining state before ho hi hr hf
    have hcp := L.cp ho
    have hap : cps read src = ((read src).take 32).map Prod.fst ++ cps read (src.drop (ext ((read src).take 32))) := by
      unfold cps
      rw [L.drop ho, ← List.map_append, List.take_append_drop]
    obtain ⟨g1, g2⟩ := calcFunc_width (((read src).take 32).map Prod.fst) 0 remaining state before hi
      (fun c hc => hcp c (by rw [hap]; exact List.mem_append_left _ hc)) hr
    have hW := columnsAfter_append before (((read src).take 32).map Prod.fst)
      (cps read (src.drop (ext ((read src).take 32))))
    rw [← hap] at hW
    unfold strWidthLoop
    rw [L.toU32 ho]
    simp only [Option.bind_some]
    by_cases hlt : (columnsAfter before (((read src).take 32).map Prod.fst) : Int) * 65536 < remaining
    · obtain ⟨st, k1, k2⟩ := g1 hlt
      rw [k2]
      dsimp only
      by_cases hm : 32 < (read src).length
      · rw [if_neg (by rintro (g | g) <;> [omega; simp [hm] at g])]
        obtain ⟨r, e1, e2⟩ := ih (src.drop (ext ((read src).take 32)))
          (remaining - columnsAfter before (((read src).take 32).map Prod.fst) * 65536) st _ (L.okDrop ho _) k1 (by omega)
          (by rw [L.drop ho]; simp; omega)
        refine ⟨r, e1, ?_⟩
        rw [e2, hW]; omega
      · rw [if_pos (by right; simp; omega)]
        refine ⟨_, rfl, ?_⟩
        have : cps read (src.drop (ext ((read src).take 32))) = [] := by
          unfold cps; rw [L.drop ho, List.drop_eq_nil_of_le (by omega)]; rfl
        rw [hW, this]
        simp only [columnsAfter]; omega
    · rw [g2 (by omega), if_pos (by left; omega)]
      exact ⟨0, rfl, by rw [hW]; omega⟩

theorem strWidth_eq (L : S.Lawful Ok read) {src : List Nat} (h : Ok src) (limit : Int) (hl : limit ≤ wmax) :
    stdStrWidth S limit src = some (min (max 0 limit) (textColumns (cps read src) * 65536)) := by
  unfold stdStrWidth
  have e : (if limit ≤ 0 then 0 else limit) = max 0 limit := by omega
  rw [e]
  dsimp only
  obtain ⟨r, e1, e2⟩ := strWidthLoop_eq L (src.length + 1) src (max 0 limit) 0 [] h .start (by omega)
    (by have := L.length_le h; omega)
  rw [e1]
  simp only [Option.bind_some]
  unfold Width.sub CInt.chk32
  have h2 : limit ≤ 2147483647 := hl
  have : ((textColumns (cps read src) : Nat) : Int) = (columnsAfter [] (cps read src) : Nat) := rfl
  rw [if_pos (by rw [e2]; omega), e2, this]
  congr 1
  omega

theorem strWidthPosLoop_eq (L : S.Lawful Ok read) (limit : Int) (hlim : limit ≤ wmax) (h0 : 0 ≤ limit) : ∀ (fuel : Nat)
    (src : List Nat) (remaining : Int) (state : Nat) (before : List Nat),
    Ok src → Inv (before.map gcb) state → 0 ≤ remaining → remaining ≤ limit → (read src).length < fuel →
    ∃ n, n ≤ (read src).length ∧
      strWidthPosLoop S limit fuel src remaining state =
        some (limit - max 0 (remaining - columnsAfter before (cps read src) * 65536),
          src.drop (ext ((read src).take n))) ∧
      (Fits before (cps read src) remaining n ∨
        (n % 32 = 0 ∧ 0 < n ∧ n < (read src).length ∧
          (columnsAfter before ((cps read src).take n) : Int) * 65536 = remaining)) ∧
      ∀ k, 0 < k → k % 32 = 0 → k < (read src).length →
        (columnsAfter before ((cps read src).take k) : Int) * 65536 = remaining → n ≤ k := by
  intro fuel
  induction fuel with
  | zero => intro src _ _ _ _ _ _ _ h; omega
  | succ fuel ih =>
    intro src remaining state before ho hi hr hrl hf
    have hcp := L.cp ho
    generalize hchunk : ((read src).take 32).map Prod.fst = chunk
    have hlen : chunk.length = min 32 (read src).length := by rw [← hchunk]; simp
    have hap : cps read src = chunk ++ cps read (src.drop (ext ((read src).take 32))) := by
      unfold cps
      rw [L.drop ho, ← hchunk, ← List.map_append, List.take_append_drop]
    have htake : ∀ m, m ≤ chunk.length → (cps read src).take m = chunk.take m := by
      intro m hm
      rw [hap, List.take_append_of_le_length hm]
    obtain ⟨n, hn, g1, g2⟩ := calcFunc_pos chunk 0 remaining state before hi
      (fun c hc => hcp c (by rw [hap]; exact List.mem_append_left _ hc)) hr
    have hW := columnsAfter_append before chunk (cps read (src.drop (ext ((read src).take 32))))
    rw [← hap] at hW
    have hl2 : limit ≤ 2147483647 := hlim
    have hnl := hn.1
    unfold strWidthPosLoop
    rw [L.toU32 ho, hchunk]
    simp only [Option.bind_some]
    by_cases hlt : n < chunk.length
    · rw [g1 hlt]
      dsimp only
      rw [if_pos (by simp)]
      unfold Width.sub CInt.chk32
      rw [if_pos (by omega)]
      simp only [Option.bind_some]
      rw [if_pos (by simp; omega)]
      simp only [Nat.zero_add, L.toU32Pos ho, Option.map_some]
      have hgt := hn.2.2 chunk.length hlt (Nat.le_refl _)
      rw [List.take_length] at hgt
      refine ⟨n, by omega, ?_, .inl ⟨by simp [cps]; omega, by rw [htake n (by omega)]; exact hn.2.1, fun m h1 h2 => ?_⟩,
        fun k _ _ _ _ => by omega⟩
      · congr 2
        rw [hW]; omega
      · by_cases hm : m ≤ chunk.length
        · rw [htake m hm]; exact hn.2.2 m h1 hm
        · have : columnsAfter before chunk ≤ columnsAfter before ((cps read src).take m) := by
            rw [hap, List.take_append, List.take_of_length_le (by omega), columnsAfter_append]; omega
          omega
    · have hne : n = chunk.length := by omega
      subst hne
      obtain ⟨st, k1, k2⟩ := g2 rfl
      rw [k2]
      dsimp only
      have hfit := hn.2.1
      rw [List.take_length] at hfit
      by_cases hm : 32 < (read src).length
      · by_cases hz : remaining - (columnsAfter before chunk : Int) * 65536 ≤ 0
        · rw [if_pos (.inl hz)]
          unfold Width.sub CInt.chk32
          rw [if_pos (by omega)]
          simp only [Option.bind_some]
          rw [if_neg (by simp)]
          refine ⟨32, by omega, ?_, .inr ⟨rfl, by omega, hm, ?_⟩, fun k _ _ _ _ => by omega⟩
          · congr 2
            rw [hW]; omega
          · rw [htake 32 (by omega), List.take_of_length_le (by omega)]; omega
        · rw [if_neg (by rintro (g | g) <;> [omega; simp [hm] at g])]
          have hld : (read (src.drop (ext ((read src).take 32)))).length = (read src).length - 32 := by
            rw [L.drop ho]; simp
          obtain ⟨n, f1, f2, f3, f4⟩ := ih (src.drop (ext ((read src).take 32)))
            (remaining - columnsAfter before chunk * 65536) st _ (L.okDrop ho _) k1 (by omega) (by omega) (by omega)
          have htk : ∀ m, (cps read src).take (32 + m) =
              chunk ++ (cps read (src.drop (ext ((read src).take 32)))).take m := by
            intro m
            rw [hap, List.take_append, List.take_of_length_le (by omega)]
            congr 2; omega
          refine ⟨32 + n, by omega, ?_, ?_, fun k k1 k2 k3 k4 => ?_⟩
          · rw [f2, hW, L.drop ho, List.drop_drop, ← ext_append, List.take_add]
            congr 2; omega
          · rcases f3 with ⟨q1, q2, q3⟩ | ⟨q0, q1, q2, q3⟩
            · left
              refine ⟨by simp [cps]; omega, ?_, fun m h1 h2 => ?_⟩
              · rw [htk, columnsAfter_append]; omega
              · obtain ⟨m', rfl⟩ : ∃ m', m = 32 + m' := ⟨m - 32, by omega⟩
                have := q3 m' (by omega) (by simp [cps] at h2 ⊢; omega)
                rw [htk, columnsAfter_append]; omega
            · right
              refine ⟨by omega, by omega, by omega, ?_⟩
              rw [htk, columnsAfter_append]; omega
          · obtain ⟨k', rfl⟩ : ∃ k', k = 32 + k' := ⟨k - 32, by omega⟩
            rw [htk, columnsAfter_append] at k4
            by_cases h0 : k' = 0
            · subst h0
              simp only [List.take_zero, columnsAfter, Nat.add_zero] at k4
              omega
            · have := f4 k' (by omega) (by omega) (by omega) (by omega)
              omega
      · rw [if_pos (by right; simp; omega)]
        have hnil : cps read (src.drop (ext ((read src).take 32))) = [] := by
          unfold cps; rw [L.drop ho, List.drop_eq_nil_of_le (by omega)]; rfl
        rw [hnil] at hW hap
        rw [List.append_nil] at hap
        simp only [columnsAfter, Nat.add_zero] at hW
        unfold Width.sub CInt.chk32
        rw [if_pos (by omega)]
        simp only [Option.bind_some]
        rw [if_neg (by simp)]
        refine ⟨(read src).length, Nat.le_refl _, ?_, .inl ?_, fun k _ _ _ _ => by omega⟩
        · rw [List.take_of_length_le (by omega), List.take_length, hW]
          congr 2
          omega
        · rw [hap]
          refine ⟨by omega, ?_, fun m h1 h2 => by omega⟩
          rw [List.take_of_length_le (by omega)]; exact hfit

end Strf.WidthCalc

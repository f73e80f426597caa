import Verif.Punct.Lemmas
import Verif.Program.Laws
/-! # Lemmas on the texts of punctuated numbers -/
namespace Strf.Punct
open Strf.IntDigits.Spec (Lettercase text numeral grouped)
open Strf.Numpunct.Spec (split)
open Strf.Float.Spec (isDigit readNumber number Shape)
open Strf.IntPrinter.Spec (Showsign Layout IntVal Fmt formatted)
open Strf.Float (FloatFmt specNotation precision)

variable {enc : Nat → List Nat} (ha : ∀ c, c < 0x80 → enc c = [c])
include ha

theorem sign_numeric (neg plus : Bool) : ∀ c ∈ (if neg then [0x2D] else if plus then [0x2B] else [] : List Nat), isNumeric c = true := by
  cases neg <;> cases plus <;> decide

/-- sign, zeros and number -/
theorem signed_reads {sep : Option Nat} {point s : Nat} (h : Clear sep point) (lc : Lettercase) (gs : List Nat) (rep alt : Bool)
    (hs : if gs = [] then sep = none ∧ rep = false else sep = some s) (neg plus : Bool) (z : Nat) (sh : Shape) :
    ∃ cs : List Nat, (if neg then [0x2D] else if plus then [0x2B] else [] : List Nat) ++ (List.replicate z 0x30 ++ number lc (enc point) (enc s) gs rep alt sh) =
        cs.flatMap enc ∧ (∀ c ∈ cs, isNumeric c = true ∨ c = point ∨ (gs ≠ [] ∧ c = s)) ∧
      plain sep point cs = (if neg then [0x2D] else if plus then [0x2B] else [] : List Nat) ++ (List.replicate z 0x30 ++ number lc [0x2E] [] [] false alt sh) ∧
      readNumber (plain sep point cs) = some (neg, (sh.digits : ℚ) * 10 ^ (sh.exp.getD 0 - sh.frac)) := by
  obtain ⟨n1, n2⟩ := number_reads ha h lc gs rep alt hs sh
  have hz : ∀ c ∈ List.replicate z 0x30, isNumeric c = true := by
    intro c hc; rw [List.eq_of_mem_replicate hc]; rfl
  have hp := sign_numeric ha neg plus
  have e : plain sep point ((if neg then [0x2D] else if plus then [0x2B] else [] : List Nat) ++ (List.replicate z 0x30 ++ number lc [point] [s] gs rep alt sh)) =
      (if neg then [0x2D] else if plus then [0x2B] else [] : List Nat) ++ (List.replicate z 0x30 ++ number lc [0x2E] [] [] false alt sh) := by
    rw [plain_append, plain_append, n2, plain_numeric h hz, plain_numeric h hp]
  refine ⟨_, ?_, ?_, e, ?_⟩
  · rw [List.flatMap_append, List.flatMap_append, n1, flatMap_ascii ha hz, flatMap_ascii ha hp]
  · intro c hc
    rcases List.mem_append.mp hc with hc | hc
    · exact .inl (hp c hc)
    rcases List.mem_append.mp hc with hc | hc
    · exact .inl (hz c hc)
    · exact number_mem (fun hg => by rw [if_pos hg] at hs; exact hs.2) hc
  · rw [e]; exact Float.readNumber_number lc alt neg plus z sh

/-- a finite floating-point number that is not aligned, and whose sign is not replaced -/
theorem finite_reads {sep : Option Nat} {point s : Nat} (h : Clear sep point) (lc : Lettercase) (gs : List Nat) (rep : Bool)
    (hs : if gs = [] then sep = none ∧ rep = false else sep = some s) (f : FloatFmt) (hsign : f.sign ≠ .fillInstead) (lay : Layout)
    (hno : lay.columns ≤ 0) (neg : Bool) (m : Nat) (e : Int) (sh : Shape)
    (hsh : sh = Float.Spec.shape gs rep (specNotation f.nota) (precision f.precision) f.showpoint m e) :
    ∃ cs : List Nat, Float.finite enc lc point s gs rep f lay neg m e = cs.flatMap enc ∧
      (∀ c ∈ cs, isNumeric c = true ∨ c = point ∨ (gs ≠ [] ∧ c = s)) ∧
      plain sep point cs = (if neg then [0x2D] else if f.sign = .positiveAlso then [0x2B] else []) ++
        (List.replicate (f.pad0 - (Float.Spec.leaderColumns f.sign neg + Float.Spec.columns gs rep f.showpoint sh : Nat)).toNat 0x30 ++
          number lc [0x2E] [] [] false f.showpoint sh) ∧
      readNumber (plain sep point cs) = some (neg, (sh.digits : ℚ) * 10 ^ (sh.exp.getD 0 - sh.frac)) := by
  obtain ⟨cs, h1, h2, h3, h4⟩ := signed_reads ha h lc gs rep f.showpoint hs neg (decide (f.sign = .positiveAlso))
    (f.pad0 - (Float.Spec.leaderColumns f.sign neg + Float.Spec.columns gs rep f.showpoint sh : Nat)).toNat sh
  refine ⟨cs, ?_, h2, by simpa using h3, h4⟩
  rw [← h1]
  unfold Float.finite Float.Spec.arranged
  dsimp only
  rw [← hsh]
  have hn : ∀ c : Nat, (lay.columns - (c : Int)).toNat = 0 := by intro c; omega
  rw [hn]
  have hb : IntPrinter.Spec.before lay.align 0 = 0 := by cases lay.align <;> rfl
  have ht : IntPrinter.Spec.times enc 0 lay.fill = [] := rfl
  rw [hb, ht, List.append_nil, List.nil_append, List.append_nil, List.append_assoc]
  have hlead : Float.Spec.leader enc f.sign lay.fill neg =
      if neg then [0x2D] else if decide (f.sign = .positiveAlso) then [0x2B] else [] := by
    unfold Float.Spec.leader
    cases neg
    · cases hs : f.sign with
      | negativeOnly => rfl
      | positiveAlso => rfl
      | fillInstead => exact absurd hs hsign
    · rfl
  rw [hlead]
  rfl

/-- an integer that is not aligned, and whose sign is not replaced -/
theorem integer_reads {sep : Option Nat} {point s : Nat} (h : Clear sep point) (lc : Lettercase) (gs : List Nat) (rep : Bool)
    (hs : if gs = [] then sep = none ∧ rep = false else sep = some s) (fmt : Fmt) (hbase : fmt.base = 10) (hsign : fmt.sign ≠ .fillInstead)
    (lay : Layout) (hno : lay.columns ≤ 0) (x : IntVal) (hx : x.Ok) :
    ∃ cs : List Nat, formatted enc lc (enc s) gs rep fmt lay x = cs.flatMap enc ∧
      (∀ c ∈ cs, isNumeric c = true ∨ c = point ∨ (gs ≠ [] ∧ c = s)) ∧
      readNumber (plain sep point cs) = some (decide (x.value < 0), (x.value.natAbs : ℚ)) := by
  obtain ⟨cs, h1, h2, h3, h4⟩ := signed_reads ha h .lower gs rep false hs (decide (x.value < 0)) (x.signed && decide (fmt.sign = .positiveAlso))
    (IntPrinter.Spec.zeros gs rep fmt x) ⟨x.value.natAbs, 0, none⟩
  refine ⟨cs, ?_, h2, by rw [h4]; simp⟩
  rw [← h1]
  have hm : IntPrinter.Spec.missing gs rep fmt lay x = 0 := by unfold IntPrinter.Spec.missing; omega
  have hb : IntPrinter.Spec.before lay.align 0 = 0 := by cases lay.align <;> rfl
  have ht : IntPrinter.Spec.times enc 0 lay.fill = [] := rfl
  have hl : IntPrinter.Spec.leader enc lc fmt lay.fill x =
      if decide (x.value < 0) then [0x2D] else if (x.signed && decide (fmt.sign = .positiveAlso)) then [0x2B] else [] := by
    unfold IntPrinter.Spec.leader
    rw [if_pos hbase]
    by_cases hneg : x.value < 0
    · simp [hneg]
    · cases x.signed
      · simp [hneg]
      · cases hs : fmt.sign with
        | negativeOnly => simp [hneg]
        | positiveAlso => simp [hneg]
        | fillInstead => exact absurd hs hsign
  have hd : ∀ lc', IntPrinter.Spec.digits lc' fmt x = text 10 .lower x.value.natAbs := by
    intro lc'
    unfold IntPrinter.Spec.digits IntPrinter.Spec.magnitude
    rw [hbase, if_pos rfl]
    have := (IntDigits.back10_ok lc' x.value.natAbs []).symm.trans (IntDigits.back10_ok .lower x.value.natAbs [])
    simpa using this
  unfold formatted
  dsimp only
  rw [hm, hb, ht, hl, hd, List.append_nil, List.nil_append, List.append_assoc]
  congr 2
  unfold IntPrinter.Spec.groups
  rw [hd]
  unfold number
  dsimp only
  rw [Float.body_eq]
  simp [Float.decDigits, IntDigits.text_length]

end Strf.Punct

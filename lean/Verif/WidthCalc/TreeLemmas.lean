import Verif.WidthCalc.Model
import Verif.WidthCalc.Spec
import Mathlib.Tactic.SplitIfs
/-! A check that a decision tree agrees with a table of runs everywhere on an interval, and its use. -/
namespace Strf.WidthCalc

variable {β : Type} [DecidableEq β]

/-- Is `v` the value of every run of the table that meets `[lo, hi]`? -/
def runOk (v : β) (lo hi : Nat) : List (Nat × β) → Bool
  | [] => false
  | (last, v') :: t => if last < lo then runOk v lo hi t else decide (v' = v) && (decide (hi ≤ last) || runOk v lo hi t)

/-- Does the tree give, through `f`, the values of the table on `[lo, hi]`? -/
def Tree.check (f : Label × Nat → β) : Tree → List (Nat × β) → Nat → Nat → Nat → Bool
  | .goto l, tbl, lo, hi, w => runOk (f (l, w)) lo hi tbl
  | .width w' t, tbl, lo, hi, _ => t.check f tbl lo hi w'
  | .le n a b, tbl, lo, hi, w =>
    (if lo ≤ n then a.check f tbl lo (min n hi) w else true) &&
    (if n < hi then b.check f (tbl.dropWhile fun r => decide (r.1 < max lo (n + 1))) (max lo (n + 1)) hi w else true)
  | .eq n a b, tbl, lo, hi, w =>
    if n < lo ∨ hi < n then b.check f tbl lo hi w
    else a.check f tbl n n w && (if lo < n then b.check f tbl lo (n - 1) w else true) &&
      (if n < hi then b.check f (tbl.dropWhile fun r => decide (r.1 < n + 1)) (n + 1) hi w else true)

theorem runOk_sound (d v : β) : ∀ (tbl : List (Nat × β)) (lo hi : Nat), runOk v lo hi tbl = true →
    ∀ c, lo ≤ c → c ≤ hi → v = lookup d tbl c := by
  intro tbl
  induction tbl with
  | nil => intro lo hi h; cases h
  | cons r t ih =>
    obtain ⟨last, v'⟩ := r
    intro lo hi h c h1 h2
    unfold runOk at h
    unfold lookup
    by_cases hl : last < lo
    · rw [if_pos hl] at h
      rw [if_neg (by omega)]
      exact ih lo hi h c h1 h2
    · rw [if_neg hl] at h
      simp only [Bool.and_eq_true, Bool.or_eq_true, decide_eq_true_eq] at h
      by_cases hc : c ≤ last
      · rw [if_pos hc]; exact h.1.symm
      · rw [if_neg hc]
        rcases h.2 with g | g
        · omega
        · exact ih lo hi g c h1 h2

omit [DecidableEq β] in
theorem lookup_dropWhile (d : β) : ∀ (tbl : List (Nat × β)) (lo c : Nat), lo ≤ c →
    lookup d (tbl.dropWhile fun r => decide (r.1 < lo)) c = lookup d tbl c := by
  intro tbl lo c h
  induction tbl with
  | nil => rfl
  | cons r t ih =>
    by_cases hl : r.1 < lo
    · rw [List.dropWhile_cons_of_pos (by simpa using hl), ih]
      show _ = if c ≤ r.1 then r.2 else lookup d t c
      rw [if_neg (by omega)]
    · rw [List.dropWhile_cons_of_neg (by simpa using hl)]

theorem Tree.check_sound (d : β) (f : Label × Nat → β) : ∀ (t : Tree) (tbl : List (Nat × β)) (lo hi w : Nat),
    t.check f tbl lo hi w = true → ∀ c, lo ≤ c → c ≤ hi → f (t.eval c w) = lookup d tbl c := by
  intro t
  induction t with
  | goto l => intro tbl lo hi w h c h1 h2; exact runOk_sound d _ tbl lo hi h c h1 h2
  | width w' t ih => intro tbl lo hi w h c h1 h2; exact ih tbl lo hi w' h c h1 h2
  | le n a b iha ihb =>
    intro tbl lo hi w h c h1 h2
    unfold Tree.check at h
    rw [Bool.and_eq_true] at h
    unfold Tree.eval
    by_cases hc : c ≤ n
    · rw [if_pos hc]
      have g := h.1
      rw [if_pos (by omega)] at g
      exact iha tbl lo _ w g c h1 (by omega)
    · rw [if_neg hc]
      have g := h.2
      rw [if_pos (by omega)] at g
      rw [ihb _ _ _ w g c (by omega) h2, lookup_dropWhile d tbl _ c (by omega)]
  | eq n a b iha ihb =>
    intro tbl lo hi w h c h1 h2
    unfold Tree.check at h
    unfold Tree.eval
    by_cases hn : n < lo ∨ hi < n
    · rw [if_pos hn] at h
      rw [if_neg (by omega)]
      exact ihb tbl lo hi w h c h1 h2
    · rw [if_neg hn, Bool.and_eq_true, Bool.and_eq_true] at h
      obtain ⟨⟨ha, hb⟩, hb'⟩ := h
      by_cases hc : c = n
      · rw [if_pos hc]; exact iha tbl n n w ha c (by omega) (by omega)
      · rw [if_neg hc]
        by_cases hlt : c < n
        · rw [if_pos (by omega)] at hb
          exact ihb tbl lo _ w hb c h1 (by omega)
        · rw [if_pos (by omega)] at hb'
          rw [ihb _ _ _ w hb' c (by omega) h2, lookup_dropWhile d tbl _ c (by omega)]

/-- The property value that a label stands for (`lvt` also where LV and LVT are told apart later). -/
def Label.gcb : Label → Gcb
  | .other => .other | .cr => .cr | .lf => .lf | .control => .control | .extend => .extend
  | .extendAndControl => .extend | .zwj => .zwj | .regionalIndicator => .ri | .prepend => .prepend
  | .spacingMark => .spacingMark | .hangulL => .l | .hangulV => .v | .hangulT => .t | .hangulLvOrLvt => .lvt
  | .extendedPicto => .pict

theorem tree_gcb : ∀ c, 0x7F ≤ c → c ≤ 0x10FFFF → (gcbTree.eval c 1).1.gcb = lookup .other gcbRuns c :=
  Tree.check_sound Gcb.other (fun p => p.1.gcb) gcbTree gcbRuns 0x7F 0x10FFFF 1 (by decide +kernel)

/-- The runs of code points of equal width. -/
def widthRuns : List (Nat × Nat) :=
  [(0x10FF, 1), (0x115F, 2), (0x2328, 1), (0x232A, 2), (0x2E7F, 1), (0x303E, 2), (0x303F, 1), (0xA4CF, 2),
   (0xABFF, 1), (0xD7A3, 2), (0xF8FF, 1), (0xFAFF, 2), (0xFE0F, 1), (0xFE19, 2), (0xFE2F, 1), (0xFE6F, 2),
   (0xFEFF, 1), (0xFF60, 2), (0xFFDF, 1), (0xFFE6, 2), (0x1F2FF, 1), (0x1F64F, 2), (0x1F8FF, 1), (0x1F9FF, 2),
   (0x1FFFF, 1), (0x2FFFD, 2), (0x2FFFF, 1), (0x3FFFD, 2), (0x10FFFF, 1)]

theorem columns_step {c last v : Nat} {t : List (Nat × Nat)} (hd : c ≤ last → columns c = v)
    (ht : last < c → columns c = lookup 1 t c) : columns c = lookup 1 ((last, v) :: t) c := by
  unfold lookup
  by_cases h : c ≤ last
  · rw [if_pos h]; exact hd h
  · rw [if_neg h]; exact ht (by omega)

theorem columns_eq (c : Nat) : columns c = lookup 1 widthRuns c := by
  unfold widthRuns
  iterate 29
    refine columns_step (fun _ => by
      unfold columns isWide
      simp only [Bool.or_eq_true, Bool.and_eq_true, decide_eq_true_eq]
      first | rw [if_pos (by omega)] | rw [if_neg (by omega)]) (fun _ => ?_)
  show _ = 1
  unfold columns isWide
  simp only [Bool.or_eq_true, Bool.and_eq_true, decide_eq_true_eq]
  rw [if_neg (by omega)]

theorem tree_width : ∀ c, 0x7F ≤ c → c ≤ 0x10FFFF → (gcbTree.eval c 1).2 = columns c := by
  intro c h1 h2
  rw [columns_eq]
  exact Tree.check_sound 1 (fun p => p.2) gcbTree widthRuns 0x7F 0x10FFFF 1 (by decide +kernel) c h1 h2

theorem tree_hangul : ∀ c, 0x7F ≤ c → c ≤ 0x10FFFF →
    decide ((gcbTree.eval c 1).1 = .hangulLvOrLvt) = lookup false [(0xABFF, false), (0xD7A3, true), (0x10FFFF, false)] c :=
  Tree.check_sound false (fun p => decide (p.1 = .hangulLvOrLvt)) gcbTree _ 0x7F 0x10FFFF 1 (by decide +kernel)

theorem char32Width_eq (c : Nat) : char32Width c = columns c := by
  unfold char32Width columns isWide
  simp only [Bool.or_eq_true, Bool.and_eq_true, decide_eq_true_eq]
  split <;> repeat' split
  all_goals omega

/-- ASCII part of the table. -/
theorem gcb_ascii : ∀ c, c < 0x7F → gcb c =
    if 0x20 ≤ c then .other else if c = 0x0D then .cr else if c = 0x0A then .lf else .control := by
  decide +kernel

theorem columns_ascii (c : Nat) (h : c < 0x7F) : columns c = 1 := by
  unfold columns isWide
  simp only [Bool.or_eq_true, Bool.and_eq_true, decide_eq_true_eq]
  rw [if_neg (by omega)]

theorem classify_width (c : Nat) (h : c ≤ 0x10FFFF) : (classify c).2 = columns c := by
  unfold classify
  by_cases h1 : c ≤ 0x7E
  · rw [if_pos h1, columns_ascii c (by omega)]
    split_ifs <;> rfl
  · rw [if_neg h1]; exact tree_width c (by omega) h

theorem and3 (n : Nat) : n &&& 3 = n % 4 := Nat.and_two_pow_sub_one_eq_mod n 2
theorem shr2 (n : Nat) : n >>> 2 = n / 4 := Nat.shiftRight_eq_div_pow n 2

/-- The label and, for precomposed Hangul syllables, the test at the label amount to the property of Unicode. -/
theorem classify_gcb (c : Nat) (h : c ≤ 0x10FFFF) :
    gcb c = if (classify c).1 = .hangulLvOrLvt ∧ c ≤ 0xD788 ∧ c &&& 3 = 0 ∧ ((c - 0xAC00) >>> 2) % 7 = 0 then .lv
      else (classify c).1.gcb := by
  by_cases h1 : c ≤ 0x7E
  · rw [gcb_ascii c (by omega)]
    unfold classify
    rw [if_pos h1]
    split_ifs <;> simp_all [Label.gcb]
  · have e1 := tree_gcb c (by omega) h
    have e2 := tree_hangul c (by omega) h
    unfold classify gcb
    rw [if_neg h1]
    rw [and3, shr2, e1]
    by_cases hh : 0xAC00 ≤ c ∧ c ≤ 0xD7A3
    · have e3 : lookup false [(0xABFF, false), (0xD7A3, true), (0x10FFFF, false)] c = true := by
        simp only [lookup]; rw [if_neg (by omega), if_pos (by omega)]
      rw [e3, decide_eq_true_eq] at e2
      have : (0xAC00 ≤ c ∧ c ≤ 0xD7A3 ∧ (c - 0xAC00) % 28 = 0) ↔
          ((gcbTree.eval c 1).1 = .hangulLvOrLvt ∧ c ≤ 0xD788 ∧ c % 4 = 0 ∧ (c - 0xAC00) / 4 % 7 = 0) := by
        rw [e2]; constructor
        · rintro ⟨_, _, _⟩; refine ⟨rfl, ?_, ?_, ?_⟩ <;> omega
        · rintro ⟨_, _, _, _⟩; refine ⟨?_, ?_, ?_⟩ <;> omega
      simp only [this]
    · have e3 : lookup false [(0xABFF, false), (0xD7A3, true), (0x10FFFF, false)] c = false := by
        simp only [lookup]; split_ifs <;> first | rfl | omega
      rw [e3, decide_eq_false_iff_not] at e2
      rw [if_neg (by omega), if_neg (fun g => e2 g.1)]

end Strf.WidthCalc

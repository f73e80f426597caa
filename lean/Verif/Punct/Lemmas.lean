import Verif.Punct.Spec
import Verif.Dragonbox.RoundProps
/-! # Lemmas on punctuated numbers -/
namespace Strf.Punct
open Strf.IntDigits.Spec (Lettercase text numeral grouped chop)
open Strf.Numpunct.Spec (split)
open Strf.Float.Spec (isDigit readNumber body number expText atLeast Shape)
open Strf.IntPrinter.Spec (Showsign)

theorem numeric_of_digit {c : Nat} (h : isDigit c = true) : isNumeric c = true := by
  unfold isNumeric; unfold isDigit at h; rw [h]; rfl

/-- numeric characters stay as they are -/
theorem plain_numeric {sep : Option Nat} {point : Nat} (h : Clear sep point) {cs : List Nat} (hc : ∀ c ∈ cs, isNumeric c = true) :
    plain sep point cs = cs := by
  unfold plain
  rw [List.filter_eq_self.mpr, List.map_congr_left (g := id), List.map_id]
  · intro c hm
    have := hc c hm
    rw [if_neg]; · rfl
    rintro rfl; rw [h.1] at this; cases this
  · intro c hm
    have := hc c hm
    rw [decide_eq_true_eq]
    intro he
    rw [(h.2 c he.symm).1] at this; cases this

theorem plain_append (sep : Option Nat) (point : Nat) (a b : List Nat) :
    plain sep point (a ++ b) = plain sep point a ++ plain sep point b := by simp [plain]

theorem plain_point {sep : Option Nat} {point : Nat} (h : Clear sep point) : plain sep point [point] = [0x2E] := by
  unfold plain
  have : (some point ≠ sep) := fun he => (h.2 point he.symm).2 rfl
  simp [this]

/-- the separators are removed -/
theorem plain_intercalate {point s : Nat} (h : Clear (some s) point) (xs : List (List Nat)) (hx : ∀ x ∈ xs, ∀ c ∈ x, isNumeric c = true) :
    plain (some s) point (List.intercalate [s] xs) = xs.flatten := by
  have h1 : (List.intercalate [s] xs).filter (fun c => decide (some c ≠ some s)) = xs.flatten := by
    rw [← IntDigits.filter_intercalate s xs]
    · congr 1; funext c; simp
    · intro x hm hs
      have := hx x hm s hs
      rw [(h.2 s rfl).1] at this; cases this
  have h2 := plain_numeric h (cs := xs.flatten) (fun c hm => by
    obtain ⟨x, hx', hc⟩ := List.mem_flatten.mp hm
    exact hx x hx' c hc)
  unfold plain at h2 ⊢
  rw [h1]
  have h3 : xs.flatten.filter (fun c => decide (some c ≠ some s)) = xs.flatten := by
    rw [← h1, List.filter_filter]; congr 1; funext c; simp
  rw [h3] at h2
  exact h2

/-- digits in groups, encoded -/
theorem flatMap_intercalate (enc : Nat → List Nat) (s : Nat) (xs : List (List Nat)) (hx : ∀ x ∈ xs, x.flatMap enc = x) :
    (List.intercalate [s] xs).flatMap enc = List.intercalate (enc s) xs := by
  induction xs with
  | nil => rfl
  | cons x xs ih =>
    cases xs with
    | nil => simpa [List.intercalate] using hx x (by simp)
    | cons y ys =>
      have e : ∀ t : List Nat, List.intercalate t (x :: y :: ys) = x ++ (t ++ List.intercalate t (y :: ys)) := by
        intro t; simp [List.intercalate, List.intersperse]
      rw [e, e, List.flatMap_append, List.flatMap_append, ih (fun z hz => hx z (by simp [hz])), hx x (by simp)]
      simp

theorem flatMap_ascii {enc : Nat → List Nat} (ha : ∀ c, c < 0x80 → enc c = [c]) {x : List Nat} (hx : ∀ c ∈ x, isNumeric c = true) :
    x.flatMap enc = x := by
  induction x with
  | nil => rfl
  | cons c x ih =>
    have hc := hx c (by simp)
    rw [List.flatMap_cons, ih (fun d hd => hx d (by simp [hd])), ha c ?_]; · rfl
    unfold isNumeric at hc
    simp at hc
    omega

theorem grouped_pieces (sep : List Nat) (gs : List Nat) (rep : Bool) (ds : List Nat) :
    ∃ ps : List (List Nat), ps.flatten = ds ∧ ∀ sep : List Nat, grouped sep (split gs rep ds.length).reverse ds = List.intercalate sep ps := by
  obtain ⟨ps, e1, e2, _, _⟩ := IntDigits.grouped_meaning sep (split gs rep ds.length).reverse ds
    (by rw [List.sum_reverse, split, Numpunct.splitFrom_sum]) (by rw [Ne, List.reverse_eq_nil_iff]; exact IntDigits.splitFrom_ne_nil _ _ _ _ _)
  refine ⟨chop (split gs rep ds.length).reverse ds, ?_, fun _ => rfl⟩
  obtain ⟨qs, f1, f2, f3, _⟩ := IntDigits.grouped_meaning [] (split gs rep ds.length).reverse ds
    (by rw [List.sum_reverse, split, Numpunct.splitFrom_sum]) (by rw [Ne, List.reverse_eq_nil_iff]; exact IntDigits.splitFrom_ne_nil _ _ _ _ _)
  unfold grouped at f1
  have flat : ∀ l : List (List Nat), List.intercalate [] l = l.flatten := by
    intro l
    induction l with
    | nil => rfl
    | cons x l ih =>
      cases l with
      | nil => simp [List.intercalate]
      | cons y l =>
        have : List.intercalate [] (x :: y :: l) = x ++ List.intercalate [] (y :: l) := by simp [List.intercalate, List.intersperse]
        rw [this, ih]; rfl
  rw [flat, flat, f2] at f1
  exact f1

theorem mem_intercalate {s c : Nat} {xs : List (List Nat)} (h : c ∈ List.intercalate [s] xs) : c ∈ xs.flatten ∨ c = s := by
  induction xs with
  | nil => exact .inl h
  | cons x xs ih =>
    cases xs with
    | nil => exact .inl (by simpa [List.intercalate] using h)
    | cons y ys =>
      have e : List.intercalate [s] (x :: y :: ys) = x ++ ([s] ++ List.intercalate [s] (y :: ys)) := by simp [List.intercalate, List.intersperse]
      rw [e] at h
      rcases List.mem_append.mp h with h | h
      · exact .inl (by simp [h])
      rcases List.mem_append.mp h with h | h
      · exact .inr (List.mem_singleton.mp h)
      · rcases ih h with h | h
        · exact .inl (by rw [List.flatten_cons]; exact List.mem_append_right _ h)
        · exact .inr h

/-- the characters of grouped digits -/
theorem grouped_mem {gs : List Nat} {rep : Bool} (hr : gs = [] → rep = false) {s c : Nat} {ds : List Nat}
    (h : c ∈ grouped [s] (split gs rep ds.length).reverse ds) : c ∈ ds ∨ (gs ≠ [] ∧ c = s) := by
  by_cases hg : gs = []
  · subst hg; rw [hr rfl, Float.grouped_plain _ _ _ _ _ rfl (by rw [Float.split_nil_length])] at h; exact .inl h
  · obtain ⟨ps, hp, hq⟩ := grouped_pieces [] gs rep ds
    rw [hq] at h
    rcases mem_intercalate h with h | h
    · exact .inl (hp ▸ h)
    · exact .inr ⟨hg, h⟩

variable {enc : Nat → List Nat} (ha : ∀ c, c < 0x80 → enc c = [c])
include ha

/-- grouped digits: what they are as characters, and without separators -/
theorem grouped_reads {sep : Option Nat} {point s : Nat} (h : Clear sep point) (gs : List Nat) (rep : Bool)
    (hs : if gs = [] then sep = none ∧ rep = false else sep = some s) (ds : List Nat) (hd : ∀ c ∈ ds, isNumeric c = true) :
    (grouped [s] (split gs rep ds.length).reverse ds).flatMap enc = grouped (enc s) (split gs rep ds.length).reverse ds ∧
      plain sep point (grouped [s] (split gs rep ds.length).reverse ds) = ds := by
  obtain ⟨ps, hp, hg⟩ := grouped_pieces [] gs rep ds
  have hps : ∀ x ∈ ps, ∀ c ∈ x, isNumeric c = true := fun x hx c hc => hd c (hp ▸ List.mem_flatten.mpr ⟨x, hx, hc⟩)
  refine ⟨by rw [hg, hg, flatMap_intercalate enc s ps fun x hx => flatMap_ascii ha (hps x hx)], ?_⟩
  by_cases hgs : gs = []
  · rw [if_pos hgs] at hs
    obtain ⟨-, rfl⟩ := hs
    subst hgs
    rw [Float.grouped_plain _ _ _ _ _ rfl (by rw [Float.split_nil_length]), plain_numeric h hd]
  · rw [if_neg hgs] at hs
    subst hs
    rw [hg, plain_intercalate h ps hps, hp]

omit ha in
theorem decDigits_numeric (n v : Nat) : ∀ c ∈ Float.decDigits n v, isNumeric c = true := fun c hc => numeric_of_digit (Float.decDigits_digits n v c hc)

/-- the digits, the separators and the point -/
theorem body_reads {sep : Option Nat} {point s : Nat} (h : Clear sep point) (gs : List Nat) (rep alt : Bool)
    (hs : if gs = [] then sep = none ∧ rep = false else sep = some s) (v f : Nat) :
    (body [point] [s] gs rep alt v f).flatMap enc = body (enc point) (enc s) gs rep alt v f ∧
      plain sep point (body [point] [s] gs rep alt v f) = body [0x2E] [] [] false alt v f := by
  have hd : ∀ c ∈ text 10 .lower (v / 10 ^ f), isNumeric c = true := fun c hc => numeric_of_digit (Float.text_digits _ c hc)
  have hl : (numeral 10 (v / 10 ^ f)).length = (text 10 .lower (v / 10 ^ f)).length := (IntDigits.text_length 10 .lower _).symm
  obtain ⟨g1, g2⟩ := grouped_reads ha h gs rep hs (text 10 .lower (v / 10 ^ f)) hd
  rw [Float.body_eq, Float.body_eq, Float.body_eq, hl]
  constructor
  · rw [List.flatMap_append, List.flatMap_append, g1, flatMap_ascii ha (decDigits_numeric f v)]
    congr 2
    split <;> simp
  · rw [plain_append, plain_append, g2, plain_numeric h (decDigits_numeric f v),
      Float.grouped_plain _ _ _ _ _ rfl (by rw [Float.split_nil_length])]
    congr 2
    split
    · exact plain_point h
    · rfl

omit ha in
theorem expText_numeric (lc : Lettercase) (x : Int) : ∀ c ∈ expText lc x, isNumeric c = true := by
  intro c hc
  unfold expText at hc
  rcases List.mem_cons.mp hc with rfl | hc
  · cases lc <;> rfl
  rcases List.mem_cons.mp hc with rfl | hc
  · split <;> rfl
  · have := (Float.parse_atLeast 2 x.natAbs).2.1
    exact numeric_of_digit (List.all_eq_true.mp this c hc)

omit ha in
theorem body_mem {gs : List Nat} {rep : Bool} (hr : gs = [] → rep = false) {s point c v f : Nat} {alt : Bool}
    (h : c ∈ body [point] [s] gs rep alt v f) : isNumeric c = true ∨ c = point ∨ (gs ≠ [] ∧ c = s) := by
  rw [Float.body_eq] at h
  have hl : (numeral 10 (v / 10 ^ f)).length = (text 10 .lower (v / 10 ^ f)).length := (IntDigits.text_length 10 .lower _).symm
  rw [hl] at h
  rcases List.mem_append.mp h with h | h
  · rcases List.mem_append.mp h with h | h
    · rcases grouped_mem hr h with h | h
      · exact .inl (numeric_of_digit (Float.text_digits _ c h))
      · exact .inr (.inr h)
    · split at h
      · exact .inr (.inl (List.mem_singleton.mp h))
      · cases h
  · exact .inl (decDigits_numeric _ _ c h)

omit ha in
/-- the characters of the number -/
theorem number_mem {gs : List Nat} {rep : Bool} (hr : gs = [] → rep = false) {s point c : Nat} {alt : Bool} {lc : Lettercase} {sh : Shape}
    (h : c ∈ number lc [point] [s] gs rep alt sh) : isNumeric c = true ∨ c = point ∨ (gs ≠ [] ∧ c = s) := by
  unfold number at h
  cases hx : sh.exp with
  | none => rw [hx] at h; exact body_mem hr h
  | some x =>
    rw [hx] at h
    rcases List.mem_append.mp h with h | h
    · have b : body [point] [] [] false alt sh.digits sh.frac = body [point] [s] [] false alt sh.digits sh.frac := by
        rw [Float.body_eq, Float.body_eq, Float.grouped_plain _ _ _ _ _ (IntDigits.text_length 10 .lower _).symm (by rw [Float.split_nil_length]),
          Float.grouped_plain _ _ _ _ _ (IntDigits.text_length 10 .lower _).symm (by rw [Float.split_nil_length])]
      rw [b] at h
      rcases body_mem (fun _ => rfl) h with h | h | h
      · exact .inl h
      · exact .inr (.inl h)
      · exact absurd rfl h.1
    · exact .inl (expText_numeric lc x c h)

/-- the number -/
theorem number_reads {sep : Option Nat} {point s : Nat} (h : Clear sep point) (lc : Lettercase) (gs : List Nat) (rep alt : Bool)
    (hs : if gs = [] then sep = none ∧ rep = false else sep = some s) (sh : Shape) :
    (number lc [point] [s] gs rep alt sh).flatMap enc = number lc (enc point) (enc s) gs rep alt sh ∧
      plain sep point (number lc [point] [s] gs rep alt sh) = number lc [0x2E] [] [] false alt sh := by
  unfold number
  cases sh.exp with
  | none => exact body_reads ha h gs rep alt hs _ _
  | some x =>
    dsimp only
    have b : ∀ q t : List Nat, body q t [] false alt sh.digits sh.frac = body q [] [] false alt sh.digits sh.frac := by
      intro q t
      rw [Float.body_eq, Float.body_eq, Float.grouped_plain _ _ _ _ _ (IntDigits.text_length 10 .lower _).symm (by rw [Float.split_nil_length]),
        Float.grouped_plain _ _ _ _ _ (IntDigits.text_length 10 .lower _).symm (by rw [Float.split_nil_length])]
    have b1 := body_reads ha (sep := none) (s := s) (point := point) ⟨h.1, by simp⟩ [] false alt (by simp) sh.digits sh.frac
    rw [b [point] [s], b (enc point) (enc s)] at b1
    have hx := expText_numeric lc x
    refine ⟨by rw [List.flatMap_append, b1.1, flatMap_ascii ha hx], ?_⟩
    rw [plain_append, plain_numeric h hx]
    congr 1
    rw [← b1.2]
    have hsep : ∀ c ∈ body [point] [] [] false alt sh.digits sh.frac, some c ≠ sep := by
      intro c hc he
      rw [Float.body_eq, Float.grouped_plain _ _ _ _ _ (IntDigits.text_length 10 .lower _).symm (by rw [Float.split_nil_length])] at hc
      have hn := (h.2 c he.symm)
      rcases List.mem_append.mp hc with hc | hc
      · rcases List.mem_append.mp hc with hc | hc
        · have := numeric_of_digit (Float.text_digits _ c hc); rw [hn.1] at this; cases this
        · split at hc
          · exact hn.2 (List.mem_singleton.mp hc)
          · cases hc
      · have := decDigits_numeric _ _ c hc; rw [hn.1] at this; cases this
    unfold plain
    rw [List.filter_eq_self.mpr (by simpa using hsep), List.filter_eq_self.mpr (by simp)]

end Strf.Punct

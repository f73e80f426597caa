import Verif.Print.Alias
import Verif.Print.TrProps
/-!
# Property C100: appending a string to itself
-/
namespace Strf.Print
open Strf.Width
open Strf.Dest (Dest Lawful Prints Appender)

/-- `SelfText own cap B t ps x`: of the arguments `ps` the text is `x` (str is `own`), after a text `t`. And `cap`: each
time that a part of str is an argument, str and the text before that part fit in the capacity. -/
inductive SelfText (own : List Nat) (cap : Nat) (B : Int) : List Nat → List Part → List Nat → Prop
  | nil {t} : SelfText own cap B t [] []
  | own {t a n ps x} : own.length + t.length ≤ cap → SelfText own cap B (t ++ (own.drop a).take n) ps x →
      SelfText own cap B t (.own a n :: ps) ((own.drop a).take n ++ x)
  | padded {t l r c a n ps x} : own.length + t.length + l ≤ cap →
      SelfText own cap B (t ++ (List.replicate l c ++ (own.drop a).take n ++ List.replicate r c)) ps x →
      SelfText own cap B t (.padded l r c a n :: ps) ((List.replicate l c ++ (own.drop a).take n ++ List.replicate r c) ++ x)
  | other {t it m ps x} : it.Means τ Appender.dest (fun s t => Appender.Rep own s t) B m →
      SelfText own cap B (t ++ m.text) ps x → SelfText own cap B t (.other it :: ps) (m.text ++ x)

theorem slice_all (l : List Nat) : slice l 0 l.length = l := by simp [slice]

theorem readable_of_rep {start t : List Nat} {cap : Nat} {s : Appender Nat} (r : Appender.Rep start s t)
    (h : start.length + t.length ≤ cap) : readable (some cap) s = true := by
  have := congrArg List.length r.2.2.2
  simp only [List.length_append] at this
  simp only [readable, decide_eq_true_eq]
  omega

theorem ownWrite_rep {start t : List Nat} {cap : Nat} {s : Appender Nat} (r : Appender.Rep start s t)
    (h : start.length + t.length ≤ cap)
    (v : List Nat) : ∃ s', ownWrite (some cap) v s = some s' ∧ Appender.Rep start s' (t ++ v) := by
  unfold ownWrite
  split_ifs with h0 h1 h2 h3 h4
  · rw [List.length_eq_zero_iff] at h0
    subst h0
    exact ⟨s, rfl, by simpa using r⟩
  · obtain ⟨s', e, r', _⟩ := (Appender.lawful start).poke s t v r h1
    exact ⟨s', e, r'⟩
  · exact absurd (readable_of_rep r h) h2
  · obtain ⟨s', e, r', _⟩ := (Appender.lawful start).doWrite s t v r (by simp only [Appender.dest]; omega)
    exact ⟨s', e, r'⟩
  · exact absurd (readable_of_rep ((Appender.lawfulAll start).recycle s t r).1 h) h4
  · exact absurd r.2.2.1 h3

theorem fillIf_rep {start t : List Nat} {s : Appender Nat} (r : Appender.Rep start s t) (n c : Nat) :
    ∃ s', (if n > 0 then Dest.writeFill Appender.dest s n c else some s) = some s' ∧
      Appender.Rep start s' (t ++ List.replicate n c) := by
  split_ifs with h
  · obtain ⟨s', e, r', _⟩ := (Appender.lawful start).prints_fill (τ := true) (n : Int) c s t r
    exact ⟨s', e, by simpa using r'⟩
  · have : n = 0 := by omega
    subst this
    exact ⟨s, rfl, by simpa using r⟩

theorem paddedWrite_rep {start t : List Nat} {cap : Nat} {s : Appender Nat} (l r c : Nat) (h : Appender.Rep start s t)
    (hc : start.length + t.length + l ≤ cap) (v : List Nat) :
    ∃ s', paddedWrite (some cap) l r c v s = some s' ∧
      Appender.Rep start s' (t ++ (List.replicate l c ++ v ++ List.replicate r c)) := by
  obtain ⟨s1, e1, r1⟩ := fillIf_rep h l c
  obtain ⟨s2, e2, r2⟩ := ownWrite_rep r1 (cap := cap) (by simp; omega) v
  obtain ⟨s3, e3, r3⟩ := fillIf_rep r2 r c
  refine ⟨s3, ?_, by simpa using r3⟩
  unfold paddedWrite
  rw [e1, Option.bind_some, e2, Option.bind_some, e3]

theorem printAll_own {start : List Nat} {cap : Nat} {B : Int} {plain : List Nat → Item (Appender Nat)} (hp : ∀ v, ((plain v).make .nothing).isSome)
    {t : List Nat} {ps : List Part} {x : List Nat} (h : SelfText start cap B t ps x) :
    ∀ s, Appender.Rep start s t →
      ∃ s', printAll Appender.dest (ps.map (Part.item (some cap) start plain)) s = some s' ∧ Appender.Rep start s' (t ++ x) := by
  induction h with
  | nil => exact fun s r => ⟨s, rfl, by simpa using r⟩
  | @own _ a n _ _ hc _ ih =>
    intro s r
    obtain ⟨s1, e1, r1⟩ := ownWrite_rep r hc (slice start a n)
    obtain ⟨s2, e2, r2⟩ := ih s1 r1
    obtain ⟨q, hq⟩ := Option.isSome_iff_exists.mp (hp (slice start a n))
    refine ⟨s2, ?_, by simpa using r2⟩
    have : (Part.item (some cap) start plain (.own a n)).print s = some s1 := by
      simp only [Part.item, Item.print, hq, Option.map_some]; exact e1
    have hg : s1.good = true := r1.2.2.1
    simp only [List.map_cons, printAll, this, Option.bind_some, hg, if_true]
    exact e2
  | @padded _ l k c a n _ _ hc _ ih =>
    intro s r
    obtain ⟨s1, e1, r1⟩ := paddedWrite_rep l k c r hc (slice start a n)
    obtain ⟨s2, e2, r2⟩ := ih s1 r1
    obtain ⟨q, hq⟩ := Option.isSome_iff_exists.mp (hp (List.replicate l c ++ slice start a n ++ List.replicate k c))
    refine ⟨s2, ?_, by simpa using r2⟩
    have : (Part.item (some cap) start plain (.padded l k c a n)).print s = some s1 := by
      simp only [Part.item, Item.print, hq, Option.map_some]; exact e1
    have hg : s1.good = true := r1.2.2.1
    simp only [List.map_cons, printAll, this, Option.bind_some, hg, if_true]
    exact e2
  | other hm _ ih =>
    intro s r
    obtain ⟨s1, e1, r1, _⟩ := hm.prints s _ r
    obtain ⟨s2, e2, r2⟩ := ih s1 r1
    refine ⟨s2, ?_, by simpa using r2⟩
    have hg : s1.good = true := r1.2.2.1
    simp only [List.map_cons, printAll, Part.item, e1, Option.bind_some, hg, if_true]
    exact e2

/-- C100: strf::append(str)(args...), where str itself, or parts of it, may be among the arguments, any number of times: the text is that of the arguments, in which
str is what it was before the call; if, each time, what str has and the text before fit in the capacity of str, and nothing
reserved exceeds it. -/
theorem append_own_partial {start : List Nat} {cap n : Nat} {B : Int} {plain : List Nat → Item (Appender Nat)}
    (hp : ∀ v, ((plain v).make .nothing).isSome) {ps : List Part} {x : List Nat} (h : SelfText start cap B [] ps x)
    (hn : n = 0 ∨ start.length + n ≤ cap) (eol : Bool) (junk : List Nat) (hj : junk.length = 64) :
    appendOwn start cap n plain eol ps junk = some (start ++ lineText eol x) := by
  unfold appendOwn
  have hc : afterCreate cap start.length n = some cap := by unfold afterCreate; rw [if_pos hn]
  rw [hc]
  obtain ⟨s1, e1, r1⟩ := printAll_own hp h _ (Appender.rep_init start hj)
  obtain ⟨s2, e2, r2, _⟩ := endLine_prints (τ := true) (Appender.lawful start) eol s1 _ r1
  unfold printPlain
  rw [e1, Option.bind_some, e2, Option.map_some, Appender.finish_of_rep r2]
  simp [lineText]

/-- C100: strf::append(str)(str) always appends str to itself. -/
theorem append_own_once {start : List Nat} {cap : Nat} (hcap : start.length ≤ cap) {plain : List Nat → Item (Appender Nat)}
    (hp : ∀ v, ((plain v).make .nothing).isSome) (eol : Bool) (junk : List Nat) (hj : junk.length = 64) :
    appendOwn start cap 0 plain eol [.own 0 start.length] junk = some (start ++ lineText eol start) := by
  have := append_own_partial (B := 0) hp (.own (by simpa using hcap) .nil : SelfText start cap 0 [] [.own 0 start.length] (_ ++ [])) (.inl rfl) eol junk hj
  simpa using this

theorem ownWrite_none {own : List Nat} {s : Appender Nat} (h : own ≠ []) (hg : s.good = true) : ownWrite none own s = none := by
  unfold ownWrite
  have : own.length ≠ 0 := by simpa using h
  simp [this, hg, readable]

/-- C100: `append(str).reserve(n)(str)`, and so `reserve_calc`, which reserves the size of the text: the pointers are good exactly if the
reservation does not make str allocate. -/
theorem append_own_reserve_iff {start : List Nat} {cap n : Nat} (hcap : start.length ≤ cap) {plain : List Nat → Item (Appender Nat)}
    (hp : ∀ v, ((plain v).make .nothing).isSome) (eol : Bool) (junk : List Nat) (hj : junk.length = 64) :
    (appendOwn start cap n plain eol [.own 0 start.length] junk).isSome ↔ start = [] ∨ n = 0 ∨ start.length + n ≤ cap := by
  by_cases hn : n = 0 ∨ start.length + n ≤ cap
  · have := append_own_partial (B := 0) hp (.own (by simpa using hcap) .nil : SelfText start cap 0 [] [.own 0 start.length] (_ ++ [])) hn eol junk hj
    rw [this]
    simp [hn]
  · have hc : afterCreate cap start.length n = none := by unfold afterCreate; rw [if_neg hn]
    obtain ⟨q, hq⟩ := Option.isSome_iff_exists.mp (hp start)
    have e : ∀ s, (Part.item none start plain (.own 0 start.length)).print s = ownWrite none start s := by
      intro s; simp only [Part.item, Item.print, slice_all, hq, Option.map_some]
    simp only [hn, or_false]
    unfold appendOwn printPlain
    simp only [hc, List.map_cons, List.map_nil, printAll, e]
    by_cases h0 : start = []
    · subst h0
      obtain ⟨s2, e2, _⟩ := endLine_prints (τ := true) (Appender.lawful []) eol _ [] (Appender.rep_init [] hj)
      simp [ownWrite, e2]
    · rw [ownWrite_none h0 rfl]
      simp [h0]

/-- C100: `append(str)(str, str)`: the pointers are good exactly if both copies fit in the buffer of the appender until the
first of them is appended, or str has capacity for two of them. -/
theorem append_own_twice_iff {start : List Nat} {cap : Nat} (hcap : start.length ≤ cap) {plain : List Nat → Item (Appender Nat)}
    (hp : ∀ v, ((plain v).make .nothing).isSome) (eol : Bool) (junk : List Nat) (hj : junk.length = 64) :
    (appendOwn start cap 0 plain eol [.own 0 start.length, .own 0 start.length] junk).isSome ↔ start.length ≤ 32 ∨ 2 * start.length ≤ cap := by
  obtain ⟨q, hq⟩ := Option.isSome_iff_exists.mp (hp start)
  have e : ∀ s, (Part.item (some cap) start plain (.own 0 start.length)).print s = ownWrite (some cap) start s := by
    intro s; simp only [Part.item, Item.print, slice_all, hq, Option.map_some]
  have hc : afterCreate cap start.length 0 = some cap := by simp [afterCreate]
  have r0 := Appender.rep_init start hj
  obtain ⟨s1, e1, r1⟩ := ownWrite_rep r0 (cap := cap) (by simpa using hcap) start
  have hrd : ∀ s : Appender Nat, readable (some cap) s = true ↔ s.str.length ≤ cap := by intro s; simp [readable]
  have hs1 : (start.length ≤ 64 → s1.str = start ∧ s1.ptr = start.length) ∧
      (64 < start.length → s1.str.length = 2 * start.length ∧ s1.ptr = 0) := by
    unfold ownWrite at e1
    split_ifs at e1 with k0 k1 k2 k3 k4
    · cases e1; exact ⟨fun _ => ⟨rfl, k0.symm⟩, fun h => by omega⟩
    · simp only [Appender.init, hj, Nat.sub_zero] at k1
      simp only [Appender.init, Appender.poke] at e1
      obtain ⟨b, _, rfl⟩ := Option.map_eq_some_iff.mp e1
      exact ⟨fun _ => ⟨rfl, by simp⟩, fun h => by omega⟩
    · simp only [Appender.init, hj, Nat.sub_zero] at k1
      cases e1
      refine ⟨fun h => absurd h k1, fun _ => ?_⟩
      refine ⟨?_, by simp [Appender.doWriteE, Appender.init]⟩
      simp [Appender.doWriteE, Appender.init]
      omega
    · exact absurd rfl k3
  have key : (ownWrite (some cap) start s1).isSome ↔ start.length ≤ 32 ∨ 2 * start.length ≤ cap := by
    have hb : s1.buf.length = 64 := r1.1
    have hg : s1.good = true := r1.2.2.1
    unfold ownWrite
    by_cases k0 : start.length = 0
    · simp [k0]
    rw [if_neg k0]
    by_cases k64 : start.length ≤ 64
    · obtain ⟨h1, h2⟩ := hs1.1 k64
      by_cases k1 : start.length ≤ s1.buf.length - s1.ptr
      · have hr : readable (some cap) s1 = true := (hrd _).2 (by rw [h1]; exact hcap)
        obtain ⟨b, eb, _⟩ := Dest.storeAt_some (buf := s1.buf) (i := s1.ptr) (xs := start) (by omega)
        rw [if_pos k1, if_pos hr]
        simp only [Appender.poke, eb, Option.map_some, Option.isSome_some, true_iff]
        omega
      · rw [if_neg k1, if_pos hg]
        have hl : ((Appender.recycleE true s1).1).str.length = 2 * start.length := by
          simp only [Appender.recycleE, hg, if_true, List.length_append, List.length_take, h1, h2]
          omega
        by_cases k2 : 2 * start.length ≤ cap
        · rw [if_pos ((hrd _).2 (by omega))]; simp [k2]
        · rw [if_neg (fun h => k2 (by have := (hrd _).1 h; omega))]
          simp only [Option.isSome_none, Bool.false_eq_true, false_iff]
          omega
    · obtain ⟨h1, h2⟩ := hs1.2 (by omega)
      have k1 : ¬ start.length ≤ s1.buf.length - s1.ptr := by omega
      rw [if_neg k1, if_pos hg]
      have hl : ((Appender.recycleE true s1).1).str.length = 2 * start.length := by
        simp only [Appender.recycleE, hg, if_true, List.length_append, List.length_take, h1, h2]
        omega
      by_cases k2 : 2 * start.length ≤ cap
      · rw [if_pos ((hrd _).2 (by omega))]; simp [k2]
      · rw [if_neg (fun h => k2 (by have := (hrd _).1 h; omega))]
        simp only [Option.isSome_none, Bool.false_eq_true, false_iff]
        omega
  unfold appendOwn printPlain
  have hg : s1.good = true := r1.2.2.1
  simp only [hc, List.map_cons, List.map_nil, printAll, e, e1, Option.bind_some, hg, if_true]
  rw [← key]
  cases e2 : ownWrite (some cap) start s1 with
  | none => simp
  | some s2 =>
    have r2 : ∃ t, Appender.Rep start s2 t := by
      unfold ownWrite at e2
      split_ifs at e2 with k0 k1 k2 k3
      · cases e2; exact ⟨_, r1⟩
      · obtain ⟨s', e', r', _⟩ := (Appender.lawful start).poke s1 _ start r1 k1
        simp only at e'
        rw [e'] at e2; cases e2; exact ⟨_, r'⟩
      · obtain ⟨s', e', r', _⟩ := (Appender.lawful start).doWrite s1 _ start r1 (by simp only; omega)
        simp only at e'
        rw [e'] at e2; cases e2; exact ⟨_, r'⟩
    obtain ⟨t, r2⟩ := r2
    obtain ⟨s3, e3, _⟩ := endLine_prints (τ := true) (Appender.lawful start) eol s2 t r2
    simp [e3]

/-- C100: `append(str).reserve_calc()(str)`, and with `.line`: defined exactly if str has capacity for what will be in it, although
the reservation is made so that it has; and then the text is right. -/
theorem append_own_calc_iff {start : List Nat} {cap : Nat} (hcap : start.length ≤ cap) {plain : List Nat → Item (Appender Nat)}
    (hp : ∀ v, ∃ r, (plain v).make ⟨some 0, none⟩ = some r ∧ r.1.accSize = v.length) (eol : Bool) (junk : List Nat) (hj : junk.length = 64) :
    ((appendOwnCalc start cap plain eol [.own 0 start.length] [0] junk).isSome ↔
      start = [] ∨ 2 * start.length + eol.toNat ≤ cap) ∧
    ∀ y, appendOwnCalc start cap plain eol [.own 0 start.length] [0] junk = some y → y = start ++ lineText eol start := by
  obtain ⟨r, hr, hsz⟩ := hp start
  have e : appendOwnCalc start cap plain eol [.own 0 start.length] [0] junk =
      ((ownWrite (afterCreate cap start.length (start.length + eol.toNat)) start (Appender.init start junk)).bind
        (endLine Appender.dest eol)).map fun s => (Appender.destroyE true (Appender.finishE true s).1).str := by
    simp only [appendOwnCalc, makeIn, printCalc, List.map_cons, List.map_nil, Part.item, slice_all, hr, Option.map_some,
      List.getElem?_cons_zero, Option.bind_some, hsz, inOrder, List.length_cons, List.length_nil]
    simp only [List.range_succ, List.range_zero, List.nil_append, List.filterMap_cons, List.filterMap_nil, List.lookup, beq_self_eq_true,
      callAll]
    congr 1
    cases ownWrite (afterCreate cap start.length (start.length + eol.toNat)) start (Appender.init start junk) with
    | none => rfl
    | some s => simp
  rw [e]
  by_cases h0 : start = []
  · subst h0
    obtain ⟨s2, e2, r2, _⟩ := endLine_prints (τ := true) (Appender.lawful []) eol _ [] (Appender.rep_init [] hj)
    have : ownWrite (afterCreate cap ([] : List Nat).length (([] : List Nat).length + eol.toNat)) [] (Appender.init [] junk) =
        some (Appender.init [] junk) := by simp [ownWrite]
    rw [this, Option.bind_some, e2, Option.map_some, Appender.finish_of_rep r2]
    simp [lineText]
  · have hpos : start.length ≠ 0 := by simpa using h0
    by_cases hc : 2 * start.length + eol.toNat ≤ cap
    · have : afterCreate cap start.length (start.length + eol.toNat) = some cap := by
        unfold afterCreate; rw [if_pos (.inr (by omega))]
      rw [this]
      obtain ⟨s1, e1, r1⟩ := ownWrite_rep (Appender.rep_init start hj) (cap := cap) (by simpa using hcap) start
      obtain ⟨s2, e2, r2, _⟩ := endLine_prints (τ := true) (Appender.lawful start) eol s1 _ r1
      rw [e1, Option.bind_some, e2, Option.map_some, Appender.finish_of_rep r2]
      simp [lineText, hc]
    · have : afterCreate cap start.length (start.length + eol.toNat) = none := by
        unfold afterCreate; rw [if_neg (by omega)]
      rw [this, ownWrite_none h0 rfl]
      simp [h0, hc]

/-! ## Examples, and what fails -/

/-- the printer of an unrelated string, in UTF-8 -/
def ownPlain (text : List Nat) : Item (Appender Nat) :=
  stringItem (utf Appender.dest .utf8) (Calc.std.on false (.utf .utf8))
      (How.copy.content Appender.dest false true (.utf .utf8) (.utf .utf8)) .copy none none text

theorem ownPlain_makes (text : List Nat) : ((ownPlain text).make .nothing).isSome := rfl

/-- str = "ab": append(str)(123, str, the second character of str) -/
example : SelfText (txt "ab") 15 0 [] [.other (intItem Appender.dest ⟨true, 4, 123⟩), .own 0 2, .own 1 1] (txt "123abb") ∧
    appendOwn (txt "ab") 15 0 ownPlain false [.other (intItem Appender.dest ⟨true, 4, 123⟩), .own 0 2, .own 1 1]
      (List.replicate 64 0) = some (txt "ab123abb") := by
  refine ⟨?_, by decide +kernel⟩
  exact .other (τ := true) (intItem_means (Appender.lawful (txt "ab")) _ (fun c => [c]) .lower ⟨true, 4, 123⟩ (by decide))
    (.own (by decide +kernel) (.own (by decide +kernel) .nil))

/-- str = "ab": append(str)(strf::center(str, 5)), in a string without more capacity: nothing is appended before str is read -/
example : appendOwn (txt "ab") 4 0 ownPlain false [.padded 2 1 0x2E 0 2] (List.replicate 64 0) = some (txt "ab..ab.") ∧
    SelfText (txt "ab") 4 0 [] [.padded 2 1 0x2E 0 2] (txt "..ab." ++ []) :=
  ⟨by decide +kernel, .padded (by decide +kernel) .nil⟩

/-- The property is false of the code: if str has 65 units, and no capacity for more, append(str)(str, str) reads the
characters of str after std::string deallocated them. -/
theorem append_own_wrong (text : List Nat) (h : text = List.replicate 65 0x61) :
    SelfText text 195 0 [] [.own 0 65, .own 0 65] (text ++ (text ++ [])) ∧
    appendOwn text 195 0 ownPlain false [.own 0 65, .own 0 65] (List.replicate 64 0) = some (text ++ text ++ text) ∧
    appendOwn text 65 0 ownPlain false [.own 0 65, .own 0 65] (List.replicate 64 0) = none := by
  subst h
  refine ⟨.own (by decide +kernel) (.own (by decide +kernel) .nil), ?_, ?_⟩ <;> decide +kernel

theorem ownPlain_size (v : List Nat) : ∃ r, (ownPlain v).make ⟨some 0, none⟩ = some r ∧ r.1.accSize = v.length :=
  ⟨_, rfl, by simp [Pre.accSize, Pre.addSize]⟩

example : appendOwnCalc (txt "01234") 15 ownPlain true [.own 0 5] [0] (List.replicate 64 0) = some (txt "0123401234\n") ∧
    appendOwnCalc (txt "01234567") 15 ownPlain true [.own 0 8] [0] (List.replicate 64 0) = none := by
  constructor <;> decide +kernel

/-- And with reserve_calc (or reserve) it is false already of short strings: str = "0123456789", in the 15 units that a std::string
has without allocation; append(str).reserve(10)(str). -/
theorem append_own_reserve_wrong :
    appendOwn (txt "0123456789") 15 10 ownPlain false [.own 0 10] (List.replicate 64 0) = none ∧
    appendOwn (txt "0123456789") 15 0 ownPlain false [.own 0 10] (List.replicate 64 0) =
      some (txt "01234567890123456789") := by
  constructor <;> decide +kernel

/-- strf::assign(str)(args...): str is empty before it is printed, so that assign(str)(str) leaves nothing, whatever str was. -/
theorem assign_own_wrong (start : List Nat) {cap : Nat} {plain : List Nat → Item (Appender Nat)} (hp : ∀ v, ((plain v).make .nothing).isSome)
    (junk : List Nat) (hj : junk.length = 64) : assignOwn start cap 0 plain false [.own 0 0] junk = some [] := by
  have := append_own_once (start := []) (cap := cap) (by simp) hp false junk hj
  simpa [assignOwn, lineText] using this

end Strf.Print

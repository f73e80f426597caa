import Verif.Transcode.NotesSpec
import Verif.Transcode.CallProps
/-! # The calls of the error notifier, call by call -/
namespace Strf.Transcode
open Strf.Format (CsName)
open Strf.Utf (Reason Enc Scalar)
open Strf.Sbc (Flags Problem)
open Strf.Charset (Func Event OnceOrTwice DERes DEPtr Res transcodeLoop transcodeTo encodePivot decodeEncodeLoop decodeEncodeTo)
open Strf.Dest (Dest Lawful)

/-! ## Lists of notifications -/

theorem notes_append (d : CsName) (a b : List Mark) : ∀ n, notes d n (a ++ b) = notes d n a ++ notes d (n - extent a) b := by
  induction a with
  | nil => intro n; simp [notes, extent]
  | cons m a ih =>
    intro n
    rw [List.cons_append, notes, notes, ih, List.append_assoc]
    simp only [extent, List.map_cons, List.sum_cons, Nat.sub_sub]

theorem OnceOrTwice.refl : ∀ l : List Event, OnceOrTwice l l
  | [] => .nil
  | _ :: l => .once (OnceOrTwice.refl l)

theorem OnceOrTwice.append {a b x y : List Event} (h : OnceOrTwice a x) (h' : OnceOrTwice b y) : OnceOrTwice (a ++ b) (x ++ y) := by
  induction h with
  | nil => exact h'
  | once _ ih => exact .once ih
  | twice _ ih => exact .twice ih

theorem OnceOrTwice.double {a b y : List Event} (ha : a.length ≤ 1) (h : OnceOrTwice b y) : OnceOrTwice (a ++ b) (a ++ (a ++ y)) := by
  rcases a with _ | ⟨e, a⟩
  · exact h
  · rcases a with _ | ⟨e', a⟩
    · exact .twice h
    · simp at ha

theorem OnceOrTwice.filter (p : Event → Bool) {a x : List Event} (h : OnceOrTwice a x) :
    OnceOrTwice (a.filter p) (x.filter p) := by
  induction h with
  | nil => exact .nil
  | @once e es l _ ih =>
    by_cases hp : p e = true
    · rw [List.filter_cons_of_pos hp, List.filter_cons_of_pos hp]; exact .once ih
    · rw [List.filter_cons_of_neg hp, List.filter_cons_of_neg hp]; exact ih
  | @twice e es l _ ih =>
    by_cases hp : p e = true
    · rw [List.filter_cons_of_pos hp, List.filter_cons_of_pos hp, List.filter_cons_of_pos hp]; exact .twice ih
    · rw [List.filter_cons_of_neg hp, List.filter_cons_of_neg hp, List.filter_cons_of_neg hp]; exact ih

theorem note_length (d : CsName) (n : Nat) (m : Mark) : (note d n m).length ≤ 1 := by
  unfold note; split
  · simp
  · split <;> simp

theorem invalids_append (a b : List Event) : invalids (a ++ b) = invalids a ++ invalids b := List.filter_append ..
theorem unsupporteds_append (a b : List Event) : unsupporteds (a ++ b) = unsupporteds a ++ unsupporteds b := List.filter_append ..

/-- in UTF-32 nothing is lacking -/
theorem notes_utf (e : Enc) (d : CsName) (ms : List Mark) : ∀ n, notes (.utf e) n ms = invalids (notes d n ms) := by
  induction ms with
  | nil => intro n; rfl
  | cons m ms ih =>
    intro n
    rw [notes, notes, ih, invalids_append]
    congr 1
    unfold note supported
    cases m.bad
    · simp only [Bool.false_eq_true, if_false, if_true]
      split <;> split <;> rfl
    · rfl

theorem notes_utf_invalids (e : Enc) (ms : List Mark) (n : Nat) : invalids (notes (.utf e) n ms) = notes (.utf e) n ms :=
  (notes_utf e (.utf e) ms n).symm

theorem notes_utf_unsupporteds (e : Enc) (ms : List Mark) (n : Nat) : unsupporteds (notes (.utf e) n ms) = [] := by
  rw [notes_utf e (.utf e) ms n]
  unfold unsupporteds invalids
  rw [List.filter_filter]
  simp

/-- the code points of a list that the charset lacks -/
def lacking (d : CsName) (cs : List Nat) : List Event := cs.flatMap fun c => if supported d c then [] else [.unsupported c]

theorem lacking_append (d : CsName) (a b : List Nat) : lacking d (a ++ b) = lacking d a ++ lacking d b := List.flatMap_append
theorem lacking_invalids (d : CsName) (cs : List Nat) : invalids (lacking d cs) = [] := by
  induction cs with
  | nil => rfl
  | cons c cs ih =>
    show invalids ((if supported d c then [] else [.unsupported c]) ++ lacking d cs) = _
    rw [invalids_append, ih]
    split <;> rfl

theorem lacking_unsupporteds (d : CsName) (cs : List Nat) : unsupporteds (lacking d cs) = lacking d cs := by
  induction cs with
  | nil => rfl
  | cons c cs ih =>
    show unsupporteds ((if supported d c then [] else [.unsupported c]) ++ lacking d cs) = _
    rw [unsupporteds_append, ih]
    show _ = (if supported d c then [] else [.unsupported c]) ++ lacking d cs
    split <;> rfl

theorem lacking_notes (d : CsName) (ms : List Mark) (hb : ∀ m ∈ ms, m.bad = true → m.char = 0xFFFD) :
    ∀ n, lacking d (ms.map Mark.char) = unsupporteds (notes d n ms) := by
  induction ms with
  | nil => intro n; rfl
  | cons m ms ih =>
    intro n
    rw [notes, unsupporteds_append, ← ih (fun x hx => hb x (by simp [hx])) (n - m.size)]
    show (if supported d m.char then [] else [.unsupported m.char]) ++ lacking d (ms.map Mark.char) = _
    congr 1
    unfold note
    cases h : m.bad with
    | true =>
      have : supported d m.char = true := by rw [hb m (by simp) h]; cases d <;> simp [supported]
      rw [this]; rfl
    | false =>
      simp only [Bool.false_eq_true, if_false]
      split <;> rfl

/-! ## What each call says -/

/-- `Works`, with the notifications: those of the marks done and that of the next one -/
def Tells (func : Func) (R : List Nat → List Mark → Prop) (stop : Mark → Option Reason) (out : Mark → List Nat) (d : CsName) : Prop :=
  ∀ room src ms, R src ms → ∃ done todo why, ms = done ++ todo ∧ (∀ m ∈ done, stop m = none) ∧
    (done.flatMap out).length ≤ room ∧
    func room src = some ⟨src.drop (extent done), done.flatMap out, why, notes d src.length (done ++ todo.take 1)⟩ ∧
    Ends stop (fun m => room < (done.flatMap out).length + (out m).length) todo why

variable {func func' : Func} {R R' : List Nat → List Mark → Prop} {stop : Mark → Option Reason} {out : Mark → List Nat} {d : CsName}

theorem Tells.mono (W : Tells func R stop out d) (h : ∀ src ms, R' src ms → R src ms) : Tells func R' stop out d :=
  fun room src ms hR => W room src ms (h src ms hR)

theorem Tells.congr (W : Tells func R stop out d) (h : ∀ room src ms, R src ms → func' room src = func room src) :
    Tells func' R stop out d := by
  intro room src ms hR
  rw [h room src ms hR]
  exact W room src ms hR

theorem badNotes_notes (s e : Enc) (its : List Utf.Item) : ∀ n,
    (Utf.badNotes s n its).map (fun x => (.invalid x.fromEnd x.size : Event)) =
      notes (.utf e) n (its.map fun i => ⟨i.char, i.size s, i.isBad⟩) := by
  induction its with
  | nil => intro n; rfl
  | cons i its ih =>
    intro n
    cases i with
    | ch c => rw [Utf.badNotes, List.map_cons, notes, ih]; rfl
    | bad k => rw [Utf.badNotes, List.map_cons, List.map_cons, notes, ih]; rfl

theorem utf_tells (k : Bool) (f : Flags) (s d : Enc) :
    Tells (Charset.utfFunc s d (utfFlags f)) (Legible k f (.utf s) (.utf d)) (stopAt f (.utf d))
      (fun m => units (.utf d) m.char) (.utf d) := by
  rintro room src ms ⟨hu, ⟨its, hp, rfl⟩, -⟩
  obtain ⟨r, e, done, todo, e0, e1, e2, e3, e4, e5, e6⟩ := Utf.transcode_outcome s d (utfFlags f) room src hu
  have hi := Utf.parses_unique hp (Utf.parses_items src hu)
  have hi : its = done ++ todo := hi.trans e0
  subst hi
  have hst : ∀ i : Utf.Item, stopAt f (.utf d) ⟨i.char, i.size s, i.isBad⟩ = if i.isBad && f.stop then some .invalid else none := by
    intro i
    unfold stopAt supported
    cases i.isBad <;> simp
  refine ⟨_, _, r.why, List.map_append, ?_, ?_, ?_, ?_⟩
  · intro m hm
    obtain ⟨i, hi, rfl⟩ := List.mem_map.1 hm
    rw [hst]
    cases hs : f.stop with
    | false => simp
    | true => rw [e4 hs i hi]; simp
  · rw [flatMap_map]; rw [e1] at e3; exact e3
  · unfold Charset.utfFunc
    rw [e]
    rw [flatMap_map, extent_map, ← e2, show (done.flatMap fun i => units (.utf d) i.char) = r.out from e1.symm,
      ← List.map_take, ← List.map_append, ← badNotes_notes s d, ← e5]
    rfl
  · rw [flatMap_map]
    generalize r.why = why at e6 ⊢
    cases why with
    | completed => dsimp only at e6; subst e6; rfl
    | insufficient =>
      obtain ⟨i, t, rfl, h1, h2⟩ := e6
      refine .inr ⟨?_, rfl, h2⟩
      rw [hst, if_neg (by rw [Bool.and_eq_true]; exact fun h => h1 ⟨h.2, h.1⟩)]
    | invalid =>
      obtain ⟨h1, n, t, rfl⟩ := e6
      refine .inl ⟨?_, by simp, by simp⟩
      rw [hst, show (utfFlags f).stop = f.stop from rfl] at *
      simp [Utf.Item.isBad, h1]
    | unsupported => exact e6.elim

theorem tells_of_outcome {f : Flags} {unit : Nat → Nat} {prob : Nat → Problem} {mark : Nat → Mark} (hsize : ∀ b, (mark b).size = 1)
    (hR : ∀ src ms, R src ms → ms = src.map mark ∧ ∀ b ∈ src, out (mark b) = [unit b] ∧ stop (mark b) = reason f (prob b) ∧
      ∀ n, (prob b).event n b = note d n (mark b))
    (h : ∀ room src ms, R src ms → ∃ r, func room src = some r ∧ Sbc.Outcome unit prob f room src r) :
    Tells func R stop out d := by
  intro room src ms hr
  obtain ⟨rfl, hb⟩ := hR src ms hr
  obtain ⟨r, e, done, todo, rfl, e1, e2, e3, e4, e5, e6⟩ := h room src _ hr
  have hn : ∀ b ∈ done ++ todo, (prob b).stops f = false → stop (mark b) = none := by
    intro b hm hs
    rw [(hb b hm).2.1]
    unfold Sbc.Problem.stops at hs
    unfold reason
    split at hs <;> simp_all
  have ho : (done.map mark).flatMap out = done.map unit := by
    have : ∀ b ∈ done, out (mark b) = [unit b] := fun b hm => (hb b (by simp [hm])).1
    clear hb e e1 e2 e3 e4 e5 e6 hn hr
    induction done with
    | nil => rfl
    | cons b t ih =>
      simp only [List.map_cons, List.flatMap_cons]
      rw [ih (fun c hc => this c (by simp [hc])), this b (by simp)]
      rfl
  have hev : ∀ (l : List Nat) (n : Nat), (∀ b ∈ l, b ∈ done ++ todo) → Sbc.notices prob n l = notes d n (l.map mark) := by
    intro l
    induction l with
    | nil => intro n _; rfl
    | cons b t ih =>
      intro n hm
      rw [Sbc.notices, List.map_cons, notes, ih _ fun c hc => hm c (by simp [hc]), (hb b (hm b (by simp))).2.2, hsize]
  refine ⟨done.map mark, todo.map mark, r.why, List.map_append, ?_, ?_, ?_, ?_⟩
  · intro m hm
    obtain ⟨b, hb', rfl⟩ := List.mem_map.1 hm
    exact hn b (by simp [hb']) (e4 b hb')
  · rw [ho, List.length_map]; exact e3
  · rw [e, ho, extent_ones hsize, List.drop_left, ← e1, ← List.map_take, ← List.map_append, ← hev, ← e5, ← e2]
    intro b hm
    rcases List.mem_append.1 hm with h | h
    · exact List.mem_append_left _ h
    · exact List.mem_append_right _ (List.mem_of_mem_take h)
  · rw [ho, List.length_map]
    generalize r.why = why at e6 ⊢
    cases why with
    | completed => dsimp only at e6; subst e6; rfl
    | insufficient =>
      obtain ⟨h0, c, t, rfl, h1⟩ := e6
      exact .inr ⟨hn c (by simp) h1, rfl, by dsimp only; rw [(hb c (by simp)).1, h0]; simp⟩
    | invalid =>
      obtain ⟨c, t, rfl, h1, h2⟩ := e6
      exact .inl ⟨by rw [(hb c (by simp)).2.1, h1]; simp [reason, h2], by simp, by simp⟩
    | unsupported =>
      obtain ⟨c, t, rfl, h1, h2⟩ := e6
      exact .inl ⟨by rw [(hb c (by simp)).2.1, h1]; simp [reason, h2], by simp, by simp⟩

theorem toU32_tells (k : Bool) (f : Flags) (i : Fin 25) :
    Tells (Sbc.toU32 (sbcOf i) f) (Legible k f (.sbc i) (.utf .utf32)) (stopAt f (.utf .utf32)) (fun m => units (.utf .utf32) m.char)
      (.utf .utf32) := by
  refine tells_of_outcome (mark := byteMark (sbcOf i)) (byteMark_size _) ?_
    fun room src ms h => Sbc.to_u32_outcome _ (sbcOf_mem i) f room src h.1
  rintro src ms ⟨hu, hm, -⟩
  refine ⟨hm, fun b hb => ⟨?_, ?_, ?_⟩⟩
  · unfold byteMark units Utf.encode
    cases (sbcOf i).isValid b <;> rfl
  · unfold byteMark stopAt supported Sbc.byteProblem reason
    cases (sbcOf i).isValid b <;> simp
  · intro n
    unfold byteMark note supported Sbc.byteProblem Sbc.Problem.event
    cases (sbcOf i).isValid b <;> simp

theorem sanitize_tells (k : Bool) (f : Flags) (i : Fin 25) :
    Tells (Sbc.sanitize (sbcOf i) f) (Legible k f (.sbc i) (.sbc i)) (stopAt f (.sbc i)) (fun m => units (.sbc i) m.char) (.sbc i) := by
  refine tells_of_outcome (mark := byteMark (sbcOf i)) (byteMark_size _) ?_
    fun room src ms h => Sbc.sanitize_outcome (sbcOf i) f room src
  rintro src ms ⟨hu, hm, -⟩
  refine ⟨hm, fun b hb => ⟨?_, ?_, ?_⟩⟩
  · have hI := sbcOf_mem i
    unfold byteMark units Sbc.byteOrQuestion
    cases hv : (sbcOf i).isValid b with
    | true => rw [if_pos rfl, if_pos rfl]; dsimp only; rw [byteOf_decode hI (hu b hb) hv]; rfl
    | false => rw [if_neg (by simp), if_neg (by simp)]; dsimp only; rw [byteOf_big hI (by omega)]; rfl
  · unfold byteMark stopAt supported Sbc.byteProblem reason
    cases hv : (sbcOf i).isValid b with
    | true => simp [byteOf_decode (sbcOf_mem i) (hu b hb) hv]
    | false => simp
  · intro n
    unfold byteMark note supported Sbc.byteProblem Sbc.Problem.event
    cases hv : (sbcOf i).isValid b with
    | true => simp [byteOf_decode (sbcOf_mem i) (hu b hb) hv]
    | false => simp

theorem charMark_note (i : Fin 25) (f : Flags) (c n : Nat) :
    (Sbc.charProblem (sbcOf i) f.lax c).event n c = note (.sbc i) n (charMark f.lax c) := by
  unfold charMark Sbc.charProblem
  by_cases hs : Scalar f.lax c
  · rw [if_pos hs, if_pos hs]
    unfold note supported Sbc.Problem.event
    by_cases h : (Sbc.byteOf (sbcOf i) c).isSome ∨ c = 0xFFFD
    · rw [if_pos h]; dsimp only
      rw [if_neg (by simp), if_pos (by simpa using h)]
    · rw [if_neg h]; dsimp only
      rw [if_neg (by simp), if_neg (by simpa using h)]
  · have h : 0xD800 ≤ c := by unfold Scalar Utf.IsSurr at hs; omega
    have h2 : c ≠ 0xFFFD := by rintro rfl; apply hs; unfold Scalar Utf.IsSurr; omega
    rw [if_neg hs, if_neg hs, byteOf_big (sbcOf_mem i) h, if_neg (by simp [h2])]
    rfl

theorem fromU32_tells (f : Flags) (j : Fin 25) :
    Tells (Sbc.fromU32 (sbcOf j) f) (Legible true f (.utf .utf32) (.sbc j)) (stopAt f (.sbc j)) (fun m => units (.sbc j) m.char)
      (.sbc j) := by
  refine tells_of_outcome (mark := charMark f.lax) (charMark_size _) (unit := Sbc.byteOrQuestion (sbcOf j))
    (prob := Sbc.charProblem (sbcOf j) f.lax) (f := f) ?_ ?_
  · rintro src ms ⟨hu, hm, -⟩
    exact ⟨marks_utf32 hu hm, fun b hb => ⟨by simp only [units]; rw [charMark_facts (sbcOf_mem j)], charMark_stop j f b,
      charMark_note j f b⟩⟩
  · rintro room src ms ⟨hu, hm, hs⟩
    have := marks_utf32 hu hm
    subst this
    exact Sbc.from_u32_outcome_partial _ (sbcOf_mem j) f room src (fun c hc => (charMark_spared hs c hc).1)
      (fun c hc => (charMark_spared hs c hc).2 rfl)

theorem tr_tells (f : Flags) (s d : CsName) (h : hasSpec s d = true) :
    Tells (Tr.func ⟨s, d⟩ f) (Legible true f s d) (stopAt f d) (fun m => units d m.char) d := by
  cases s with
  | utf s =>
    cases d with
    | utf d => exact utf_tells true f s d
    | sbc j =>
      have : s = .utf32 := by simpa [hasSpec] using h
      subst this
      exact fromU32_tells f j
  | sbc i =>
    cases d with
    | utf d =>
      have : d = .utf32 := by simpa [hasSpec] using h
      subst this
      exact toU32_tells true f i
    | sbc j =>
      have : i = j := by simpa [hasSpec] using h
      subst this
      exact sanitize_tells true f i

theorem unsafe_tells (f : Flags) (s d : CsName) (h : hasSpec s d = true) :
    Tells (Tr.unsafeFunc ⟨s, d⟩ f) (Sound f s d) (stopAt f d) (fun m => units d m.char) d := by
  cases s with
  | utf s =>
    cases d with
    | utf d =>
      refine ((utf_tells false f s d).mono fun _ _ h => h.1).congr fun room src ms h => ?_
      unfold Tr.unsafeFunc Charset.utfUnsafe Charset.utfFunc
      obtain ⟨r, e1, e2⟩ := Utf.unsafe_agrees s d (utfFlags f) room src
        (Utf.AllGood.wellFormed h.1.1 (sound_allGood (d := .utf d) h))
      dsimp only
      rw [e1, e2]
    | sbc j =>
      have : s = .utf32 := by simpa [hasSpec] using h
      subst this
      refine tells_of_outcome (mark := charMark f.lax) (charMark_size _) (unit := Sbc.byteOrQuestion (sbcOf j))
        (prob := Sbc.charProblem (sbcOf j) f.lax) (f := f) ?_ ?_
      · rintro src ms ⟨⟨hu, hm, -⟩, -⟩
        exact ⟨marks_utf32 hu hm, fun b hb => ⟨by simp only [units]; rw [charMark_facts (sbcOf_mem j)], charMark_stop j f b,
          charMark_note j f b⟩⟩
      · rintro room src ms ⟨⟨hu, hm, hs⟩, hb⟩
        have := marks_utf32 hu hm
        subst this
        refine Sbc.unsafe_from_u32_outcome _ (sbcOf_mem j) f room src (fun c hc => (charMark_spared hs c hc).1) fun c hc => ?_
        have := hb _ (List.mem_map_of_mem hc)
        unfold charMark at this
        by_contra hn
        rw [if_neg hn] at this
        cases this
  | sbc i =>
    cases d with
    | utf d =>
      have : d = .utf32 := by simpa [hasSpec] using h
      subst this
      refine ((toU32_tells false f i).mono fun _ _ h => h.1).congr fun room src ms h => ?_
      obtain ⟨r, e1, e2, -⟩ := Sbc.unsafe_to_u32_outcome _ (sbcOf_mem i) f room src (sound_valid h)
      show Sbc.unsafeToU32 (sbcOf i) room src = _
      rw [e1, e2]
    | sbc j =>
      have : i = j := by simpa [hasSpec] using h
      subst this
      exact ((sanitize_tells false f i).mono fun _ _ h => h.1).congr fun room src ms h =>
        Print.unsafeSanitize_eq f room src fun b hb => (sound_valid h b hb).2

theorem to_tells (f : Flags) (k : Bool) (s d : CsName) :
    Tells ((toU32 s).func f) (Legible k f s d) (stopAt f (.utf .utf32)) (fun m => [m.char]) (.utf .utf32) := by
  have h : Tells ((toU32 s).func f) (Legible true f s (.utf .utf32)) (stopAt f (.utf .utf32)) (fun m => [m.char]) (.utf .utf32) :=
    tr_tells f s (.utf .utf32) (toU32_hasSpec s)
  exact h.mono fun _ _ h => ⟨h.1, h.2.1, trivial⟩

theorem to_unsafe_tells (f : Flags) (s d : CsName) :
    Tells ((toU32 s).unsafeFunc f) (Sound f s d) (stopAt f (.utf .utf32)) (fun m => [m.char]) (.utf .utf32) := by
  have h : Tells ((toU32 s).unsafeFunc f) (Sound f s (.utf .utf32)) (stopAt f (.utf .utf32)) (fun m => [m.char]) (.utf .utf32) :=
    unsafe_tells f s (.utf .utf32) (toU32_hasSpec s)
  exact h.mono fun _ _ h => ⟨⟨h.1.1, h.1.2.1, trivial⟩, h.2⟩

/-- `Encodes`, with the notifications -/
def EncodesTelling (fromU32 : Func) (ok : Nat → Prop) (enc : Nat → List Nat) (stopU : Nat → Bool) (d : CsName) : Prop :=
  ∀ room cs, (∀ c ∈ cs, ok c) → ∃ x y why, cs = x ++ y ∧ (∀ c ∈ x, stopU c = false) ∧ (x.flatMap enc).length ≤ room ∧
    fromU32 room cs = some ⟨y, x.flatMap enc, why, lacking d (x ++ y.take 1)⟩ ∧
    match y with
    | [] => why = .completed
    | c :: _ => (stopU c = true ∧ why = .unsupported) ∨
        (stopU c = false ∧ why = .insufficient ∧ room < (x.flatMap enc).length + (enc c).length)

theorem lacking_codes (d : CsName) (cs : List Nat) : ∀ n, notes d n (cs.map fun c => ⟨c, 1, false⟩) = lacking d cs := by
  induction cs with
  | nil => intro n; rfl
  | cons c cs ih => intro n; rw [List.map_cons, notes, ih]; rfl

theorem from_encodes_telling (f : Flags) (d : CsName) :
    EncodesTelling ((fromU32 d).unsafeFunc f) (Codable f d) (units d) (lacks f d) d := by
  intro room cs hc
  obtain ⟨done, todo, why, e0, e1, e2, e3, e4⟩ := unsafe_tells f _ d (fromU32_hasSpec d) room cs _ (codable_sound hc)
  obtain ⟨x, y, rfl, rfl, rfl⟩ := List.map_eq_append_iff.1 e0
  have hst : ∀ c, stopAt f d ⟨c, 1, false⟩ = if lacks f d c then some .unsupported else none := by
    intro c
    unfold stopAt lacks
    cases supported d c <;> simp
  rw [flatMap_map] at e2 e3 e4
  rw [extent_ones (mark := fun c => ⟨c, 1, false⟩) (fun _ => rfl), List.drop_left, ← List.map_take, ← List.map_append,
    lacking_codes] at e3
  refine ⟨x, y, why, rfl, ?_, e2, e3, ?_⟩
  · intro c hc
    have := e1 _ (List.mem_map_of_mem hc)
    rw [hst] at this
    cases hl : lacks f d c with
    | false => rfl
    | true => rw [hl] at this; cases this
  · rcases y with _ | ⟨c, y⟩
    · exact e4
    · rcases e4 with ⟨h1, -, -⟩ | ⟨h1, h2, h3⟩
      · rw [hst] at h1
        cases hl : lacks f d c with
        | false => rw [hl] at h1; cases h1
        | true => rw [hl, if_pos rfl] at h1; injection h1 with h1; exact .inl ⟨hl, h1.symm⟩
      · rw [hst] at h1
        cases hl : lacks f d c with
        | false => exact .inr ⟨hl, h2, h3⟩
        | true => rw [hl] at h1; cases h1

end Strf.Transcode

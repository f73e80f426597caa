import Verif.Transcode.Inst
import Verif.Transcode.FindProps
/-!
# C76, C77: converting between any two charsets

What is claimed is in Spec.lean: `Marks` (how the source reads), `Converts`, `ConvertsIn` (what must have been written, where the
conversion stopped and why).
-/
namespace Strf.Transcode
open Strf.Format (CsName CharT CharsetArg)
open Strf.Utf (Reason)
open Strf.Sbc (Flags)
open Strf.Charset (Func SizeFunc DERes DEPtr)
open Strf.Dest (Dest Lawful)

variable {σ : Type} {D : Dest Nat σ} {Rep : σ → List Nat → Prop}

/-! ## From what functions do to what is claimed -/

theorem stopAt_cases {f : Flags} {d : CsName} {m : Mark} {why : Reason} (h : stopAt f d m = some why) :
    why = .invalid ∨ why = .unsupported := by
  unfold stopAt at h
  split at h <;> split at h <;> (try split at h) <;> simp_all

theorem converts_of_ends {f : Flags} {d : CsName} {src : List Nat} {ms done todo : List Mark} {full : Mark → Prop} {why : Reason}
    (e : ms = done ++ todo) (hn : ∀ m ∈ done, stopAt f d m = none) (hE : Ends (stopAt f d) full todo why) :
    Converts f d src ms full (text d done) (src.drop (extent done)) 0 why := by
  refine ⟨todo, ⟨done, [], by simpa using e, by simpa using hn, by simp, rfl, rfl⟩, ?_⟩
  rcases todo with _ | ⟨m, todo⟩
  · cases hE; exact ⟨rfl, rfl⟩
  · rcases hE with ⟨h, -, -⟩ | ⟨h, rfl, h2⟩
    · rcases stopAt_cases h with rfl | rfl
      · exact ⟨rfl, m, todo, rfl, h⟩
      · exact ⟨m, todo, rfl, h⟩
    · exact ⟨m, todo, rfl, h, h2⟩

theorem stopAt_split {f : Flags} {d : CsName} {m : Mark} (hb : m.bad = true → m.char = 0xFFFD) :
    stopAt f d m = match stopAt f (.utf .utf32) m with
      | some r => some r
      | none => if lacks f d m.char then some .unsupported else none := by
  unfold stopAt lacks
  cases h : m.bad with
  | true =>
    rw [hb h]
    have : supported d 0xFFFD = true := by cases d <;> simp [supported]
    cases f.stop <;> simp [this]
  | false => cases hs : supported d m.char <;> cases f.stopUnsup <;> simp [supported]

theorem marks_bad {lax : Bool} {s : CsName} {src : List Nat} {ms : List Mark} (h : Marks lax s src ms) :
    ∀ m ∈ ms, m.bad = true → m.char = 0xFFFD := by
  intro m hm hb
  cases s with
  | utf e =>
    obtain ⟨its, -, rfl⟩ := h
    obtain ⟨i, -, rfl⟩ := List.mem_map.1 hm
    cases i with
    | ch c => cases hb
    | bad n => rfl
  | sbc i =>
    rw [show ms = _ from h] at hm
    obtain ⟨b, -, rfl⟩ := List.mem_map.1 hm
    split at hb
    · cases hb
    · rename_i h; rw [if_neg h]

theorem converts_of_pivot {f : Flags} {d : CsName} {src : List Nat} {ms done near todo : List Mark} {full : Mark → Prop}
    {why : Reason} (hb : ∀ m ∈ ms, m.bad = true → m.char = 0xFFFD) (e : ms = done ++ near ++ todo)
    (hn : ∀ m ∈ done ++ near, stopAt f (.utf .utf32) m = none ∧ lacks f d m.char = false)
    (hE : PivotEnds (stopAt f (.utf .utf32)) (lacks f d) full near todo why) :
    Converts f d src ms full (text d (done ++ near)) (src.drop (extent done)) near.length why := by
  refine ⟨todo, ⟨done, near, e, ?_, rfl, rfl, rfl⟩, ?_⟩
  · intro m hm
    rw [stopAt_split (hb m (by rw [e]; exact List.mem_append_left _ hm)), (hn m hm).1, (hn m hm).2]
    rfl
  · rcases todo with _ | ⟨m, todo⟩
    · obtain ⟨rfl, rfl⟩ := hE; exact ⟨rfl, rfl⟩
    · have hs := stopAt_split (f := f) (d := d) (hb m (by rw [e]; simp))
      rcases hE with ⟨rfl, h, -, -⟩ | ⟨h1, h2, rfl⟩ | ⟨h1, h2, rfl, h4⟩
      · rw [h] at hs
        rcases stopAt_cases h with rfl | rfl
        · exact ⟨rfl, m, todo, rfl, hs⟩
        · exact ⟨m, todo, rfl, hs⟩
      · rw [h1, h2] at hs
        exact ⟨m, todo, rfl, hs⟩
      · rw [h1, h2] at hs
        exact ⟨m, todo, rfl, hs, h4⟩

theorem wanted_of_converts {f : Flags} {d : CsName} {src : List Nat} {ms : List Mark} {out stale : List Nat}
    {n : Nat} {why : Reason} (h : Converts f d src ms (fun _ => False) out stale n why) : out = text d (wanted f d ms) := by
  obtain ⟨todo, ⟨done, near, e, hn, rfl, -, -⟩, hw⟩ := h
  have : wanted f d ms = done ++ near := by
    unfold wanted
    rw [e, takeWhile_split hn]
    have : todo.takeWhile (fun m => (stopAt f d m).isNone) = [] := by
      cases why with
      | completed => rw [hw.2]; rfl
      | invalid => obtain ⟨-, m, t, rfl, h⟩ := hw; rw [List.takeWhile_cons, h]; rfl
      | unsupported => obtain ⟨m, t, rfl, h⟩ := hw; rw [List.takeWhile_cons, h]; rfl
      | insufficient => obtain ⟨m, t, rfl, -, h⟩ := hw; exact h.elim
    rw [this, List.append_nil]
  rw [this]

/-- a destination that has failed takes whatever else it should have been given -/
theorem rep_wanted (L : Lawful D Rep) {st : σ} {t src : List Nat} {f : Flags} {d : CsName} {ms : List Mark} {out stale : List Nat}
    {n : Nat} {why : Reason} (hr : Rep st (t ++ out)) (h : Converts f d src ms (fun _ => D.good st = false) out stale n why) :
    Rep st (t ++ text d (wanted f d ms)) := by
  cases hg : D.good st with
  | true =>
    rw [hg] at h
    have h' : Converts f d src ms (fun _ => False) out stale n why := by
      simpa using h
    rw [← wanted_of_converts h']
    exact hr
  | false =>
    obtain ⟨todo, ⟨done, near, e, hn, rfl, -, -⟩, hw⟩ := h
    have : wanted f d ms = done ++ near ++ todo.takeWhile (fun m => (stopAt f d m).isNone) := by
      unfold wanted
      rw [e, takeWhile_split hn]
    rw [this]
    unfold text at hr ⊢
    rw [List.flatMap_append, ← List.append_assoc]
    exact L.bad _ _ _ hr hg

theorem units_length (d : CsName) (c : Nat) : (units d c).length ≤ 64 := by
  cases d with
  | utf e => have := Charset.encode_le e c; show (Utf.encode e c).length ≤ 64; omega
  | sbc j => simp [units]

/-- What the conversion to a destination must do: nothing if it has failed before; otherwise it writes what is wanted, or what the
destination takes before it fails. -/
def ConvertsTo (D : Dest Nat σ) (Rep : σ → List Nat → Prop) (f : Flags) (d : CsName) (src : List Nat) (ms : List Mark)
    (call : σ → Option (σ × DERes)) : Prop :=
  ∀ st t, Rep st t →
    (D.good st = false → call st = some (st, ⟨0, src, 0, .insufficient, []⟩)) ∧
    (D.good st = true → ∃ st' q out, call st = some (st', q) ∧ Rep st' (t ++ text d (wanted f d ms)) ∧ q.count = out.length ∧
      Rep st' (t ++ out) ∧ Converts f d src ms (fun _ => D.good st' = false) out q.stale q.u32dist q.why)

/-! ## Functions found -/

variable {func toU32' fromU32' : Func} {R : List Nat → List Mark → Prop}

theorem ptr_of_works {f : Flags} {d : CsName} (W : Works func R (stopAt f d) (fun m => units d m.char)) {src : List Nat}
    {ms : List Mark} (hR : R src ms) (room : Nat) :
    ∃ r, func room src = some r ∧ ConvertsIn f d src ms room r.out r.rest 0 r.why := by
  obtain ⟨done, todo, why, ev, e0, hn, hl, e1, hE⟩ := W room src ms hR
  exact ⟨_, e1, hl, converts_of_ends e0 hn hE⟩

theorem dst_of_works (L : Lawful D Rep) {f : Flags} {d : CsName} (W : Works func R (stopAt f d) (fun m => units d m.char))
    (HR : Reads R) {src : List Nat} {ms : List Mark} (hR : R src ms) :
    ConvertsTo D Rep f d src ms fun st =>
      (Charset.transcodeTo D func st src).map fun p => (p.1, ⟨p.2.count, p.2.rest, 0, p.2.why, p.2.events⟩) := by
  intro st t hr
  dsimp only
  unfold Charset.transcodeTo
  refine ⟨fun hg => by rw [if_pos (by simp [hg])]; rfl, fun hg => ?_⟩
  rw [if_neg (by simp [hg])]
  obtain ⟨s', q, done, todo, e, -, h1, h2, h3, h4, h5, h6⟩ := W.loop L HR (fun m => units_length d m.char) (src.length + 2) st t
    src ms hR hr (by have := HR.length _ _ hR; omega)
  have hC := converts_of_ends (src := src) h1 h2 h6
  rw [e]
  refine ⟨s', _, text d done, rfl, rep_wanted L h5 hC, h3, h5, ?_⟩
  dsimp only
  rw [h4]
  exact hC

/-! ## Through UTF-32 -/

theorem defect_none (j : Fin 25) {b : Nat} (hb : b < 256) : ¬ Sbc.Defect (sbcOf j) ((sbcOf j).decode b) := by
  have h1 : ∀ b < 256, Sbc.windows_1254.decode b ∉ [0xD0, 0xDD, 0xDE, 0xF0, 0xFD, 0xFE] := by decide +kernel
  have h2 : ∀ b < 256, Sbc.windows_1258.decode b ≠ 0x9F := by decide +kernel
  rintro (⟨e, h⟩ | ⟨e, h⟩)
  · rw [e] at h; exact h1 b hb h
  · rw [e] at h; exact h2 b hb h

theorem marks_codable {k : Bool} {f : Flags} {s d : CsName} {src : List Nat} {ms : List Mark} (h : Legible k f s d src ms) :
    ∀ m ∈ ms, Codable f d m.char := by
  obtain ⟨hu, hm, hs⟩ := h
  intro m hmem
  have hsc : Utf.Scalar f.lax m.char := by
    cases s with
    | utf e =>
      obtain ⟨its, hp, rfl⟩ := hm
      obtain ⟨i, hi, rfl⟩ := List.mem_map.1 hmem
      exact Utf.item_scalar hp i hi
    | sbc i =>
      rw [show ms = src.map (byteMark (sbcOf i)) from hm] at hmem
      obtain ⟨b, hb, rfl⟩ := List.mem_map.1 hmem
      rw [byteMark_char (sbcOf_mem i) (hu b hb)]
      exact Charset.decode_scalar (sbcOf_mem i) f.lax b (hu b hb)
  refine ⟨hsc, ?_⟩
  rintro j rfl
  rcases hs with rfl | hs
  · rw [show ms = src.map (byteMark (sbcOf j)) from hm] at hmem
    obtain ⟨b, hb, rfl⟩ := List.mem_map.1 hmem
    rw [byteMark_char (sbcOf_mem j) (hu b hb)]
    exact defect_none j (hu b hb)
  · exact (hs m hmem).1

theorem ptr_of_pivot {f : Flags} {s d : CsName} (WA : Works toU32' R (stopAt f (.utf .utf32)) fun m => [m.char]) (HR : Reads R)
    (hL : ∀ src ms, R src ms → Legible false f s d src ms) {src : List Nat} {ms : List Mark} (hR : R src ms) {P : Nat} (hP : 1 ≤ P)
    (room : Nat) :
    ∃ x, dePtr P toU32' ((fromU32 d).unsafeFunc f) (src.length + 1) room src = some x ∧
      Charset.decodeEncodeSize P toU32' ((fromU32 d).unsafeSize f) (src.length + 1) room src =
        some ⟨x.out.length, x.stale, x.u32dist, x.why, []⟩ ∧
      ConvertsIn f d src ms room x.out x.stale x.u32dist x.why := by
  obtain ⟨x, e, hz, done, near, todo, e0, hn, e1, hl, e2, e3, hE⟩ := pivot_ptr WA HR (from_encodes f d)
    (fun src ms h => marks_codable (hL src ms h)) hP (src.length + 1) room src ms hR (by have := HR.length _ _ hR; omega)
  refine ⟨x, e, hz _ (from_size f d), hl, ?_⟩
  have := converts_of_pivot (src := src) (marks_bad (hL _ _ hR).2.1) e0 hn hE
  rw [e2, e3]
  have e1 : x.out = text d (done ++ near) := e1
  rw [e1] at this ⊢
  exact this

theorem dst_of_pivot (L : Lawful D Rep) {f : Flags} {s d : CsName}
    (WA : Works toU32' R (stopAt f (.utf .utf32)) fun m => [m.char]) (HR : Reads R)
    (hL : ∀ src ms, R src ms → Legible false f s d src ms) {src : List Nat} {ms : List Mark} (hR : R src ms) :
    ConvertsTo D Rep f d src ms fun st => Charset.decodeEncodeTo D toU32' ((fromU32 d).unsafeFunc f) st src := by
  intro st t hr
  dsimp only
  unfold Charset.decodeEncodeTo
  refine ⟨fun hg => by rw [if_pos (by simp [hg])], fun hg => ?_⟩
  rw [if_neg (by simp [hg])]
  obtain ⟨s', q, done, near, todo, e, -, h1, h2, h3, h4, h5, h6, h7⟩ := pivot_loop L WA HR (from_encodes f d) (units_length d)
    (fun src ms h => marks_codable (hL src ms h)) (src.length + 1) st t src ms hR hr (by have := HR.length _ _ hR; omega)
  have hC := converts_of_pivot (src := src) (marks_bad (hL _ _ hR).2.1) h1 h2 h7
  rw [← h4, ← h5] at hC
  rw [e]
  exact ⟨s', q, text d (done ++ near), rfl, rep_wanted L h6 hC, h3, h6, hC⟩

theorem to_works (k : Bool) (f : Flags) (s d : CsName) :
    Works ((toU32 s).func f) (Legible k f s d) (stopAt f (.utf .utf32)) fun m => [m.char] := by
  have h : Works ((toU32 s).func f) (Legible true f s (.utf .utf32)) (stopAt f (.utf .utf32)) fun m => [m.char] :=
    tr_works true f (fun _ => rfl) s (.utf .utf32) (toU32_hasSpec s)
  exact h.mono fun _ _ h => ⟨h.1, h.2.1, trivial⟩

theorem to_unsafe_works (f : Flags) (s d : CsName) :
    Works ((toU32 s).unsafeFunc f) (Sound f s d) (stopAt f (.utf .utf32)) fun m => [m.char] := by
  have h : Works ((toU32 s).unsafeFunc f) (Sound f s (.utf .utf32)) (stopAt f (.utf .utf32)) fun m => [m.char] :=
    unsafe_works f s (.utf .utf32) (toU32_hasSpec s)
  exact h.mono fun _ _ h => ⟨⟨h.1.1, h.1.2.1, trivial⟩, h.2⟩

/-! ## The result is determined -/

/-- What is written and why it ends do not depend on how: so C76 says what they are. -/
theorem converts_unique {f : Flags} {d : CsName} {src : List Nat} {ms : List Mark} {room : Nat} {out out' stale stale' : List Nat}
    {n n' : Nat} {why why' : Reason} (h : ConvertsIn f d src ms room out stale n why)
    (h' : ConvertsIn f d src ms room out' stale' n' why') : out = out' ∧ why = why' := by
  obtain ⟨hl, todo, ⟨d1, n1, e, hn, rfl, -, -⟩, hw⟩ := h
  obtain ⟨hl', todo', ⟨d2, n2, e', hn', rfl, -, -⟩, hw'⟩ := h'
  generalize d1 ++ n1 = x at *
  generalize d2 ++ n2 = y at *
  have len : ∀ (m : Mark) (t z : List Mark), (text d (z ++ m :: t)).length ≥ (text d z).length + (units d m.char).length := by
    intro m t z; unfold text; simp
  -- the next mark of one of them is a reason to end
  have step : ∀ {x y todo todo' : List Mark} {why : Reason} {n : Nat}, ms = x ++ todo → ms = y ++ todo' →
      (∀ m ∈ y, stopAt f d m = none) → (text d y).length ≤ room → x.length < y.length →
      (match why with
        | .completed => n = 0 ∧ todo = []
        | .invalid => n = 0 ∧ ∃ m t, todo = m :: t ∧ stopAt f d m = some .invalid
        | .unsupported => ∃ m t, todo = m :: t ∧ stopAt f d m = some .unsupported
        | .insufficient => ∃ m t, todo = m :: t ∧ stopAt f d m = none ∧ room < (text d x).length + (units d m.char).length) →
      False := by
    intro x y todo todo' why n e e' hn hl hlt hw
    have hp : x <+: y := List.prefix_of_prefix_length_le ⟨todo, e.symm⟩ ⟨todo', e'.symm⟩ (by omega)
    obtain ⟨z, rfl⟩ := hp
    rcases z with _ | ⟨m, z⟩
    · simp at hlt
    rw [e, List.append_assoc] at e'
    have e2 : todo = m :: z ++ todo' := by simpa using e'
    have hm := hn m (by simp)
    cases why with
    | completed => rw [hw.2] at e2; cases e2
    | invalid => obtain ⟨-, m', t, e3, h⟩ := hw; rw [e3] at e2; injection e2 with e4; rw [e4, hm] at h; cases h
    | unsupported => obtain ⟨m', t, e3, h⟩ := hw; rw [e3] at e2; injection e2 with e4; rw [e4, hm] at h; cases h
    | insufficient =>
      obtain ⟨m', t, e3, -, h⟩ := hw
      rw [e3] at e2; injection e2 with e4; rw [e4] at h
      have := len m z x
      omega
  rcases Nat.lt_trichotomy x.length y.length with g | g | g
  · exact (step (why := why) e e' hn' hl' g hw).elim
  · have hxy : x = y := List.append_inj_left (e.symm.trans e') g
    subst hxy
    have ht : todo = todo' := by simpa using e.symm.trans e'
    subst ht
    refine ⟨rfl, ?_⟩
    rcases todo with _ | ⟨m, t⟩
    · have q : ∀ {why : Reason} {n : Nat}, (match why with
        | .completed => n = 0 ∧ ([] : List Mark) = []
        | .invalid => n = 0 ∧ ∃ m t, ([] : List Mark) = m :: t ∧ stopAt f d m = some .invalid
        | .unsupported => ∃ m t, ([] : List Mark) = m :: t ∧ stopAt f d m = some .unsupported
        | .insufficient => ∃ m t, ([] : List Mark) = m :: t ∧ stopAt f d m = none ∧
            room < (text d x).length + (units d m.char).length) → why = .completed := by
        intro why n h
        cases why with
        | completed => rfl
        | invalid => obtain ⟨-, m, t, h, -⟩ := h; cases h
        | unsupported => obtain ⟨m, t, h, -⟩ := h; cases h
        | insufficient => obtain ⟨m, t, h, -⟩ := h; cases h
      rw [q hw, q hw']
    · have q : ∀ {why : Reason} {n : Nat}, (match why with
        | .completed => n = 0 ∧ m :: t = []
        | .invalid => n = 0 ∧ ∃ m' t', m :: t = m' :: t' ∧ stopAt f d m' = some .invalid
        | .unsupported => ∃ m' t', m :: t = m' :: t' ∧ stopAt f d m' = some .unsupported
        | .insufficient => ∃ m' t', m :: t = m' :: t' ∧ stopAt f d m' = none ∧
            room < (text d x).length + (units d m'.char).length) → why = (stopAt f d m).getD .insufficient := by
        intro why n h
        cases why with
        | completed => cases h.2
        | invalid => obtain ⟨-, m', t', e, h⟩ := h; injection e with e; rw [e, h]; rfl
        | unsupported => obtain ⟨m', t', e, h⟩ := h; injection e with e; rw [e, h]; rfl
        | insufficient => obtain ⟨m', t', e, h, -⟩ := h; injection e with e; rw [e, h]; rfl
      rw [q hw, q hw']
  · exact (step (why := why') e' e hn hl g hw').elim

end Strf.Transcode

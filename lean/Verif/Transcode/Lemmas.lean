import Verif.Transcode.Model
import Verif.Charset.Lemmas
/-! # Transcoding functions that work mark by mark, through destinations and pivot buffers -/
namespace Strf.Transcode
open Strf.Utf (Reason)
open Strf.Charset (Func SizeFunc DERes DEPtr Res Event transcodeLoop transcodeTo encodePivot decodeEncodeLoop decodeEncodeTo)
open Strf.Dest (Dest Lawful)

/-- why a call ends before `todo` -/
def Ends (stop : Mark → Option Reason) (full : Mark → Prop) : List Mark → Reason → Prop
  | [], why => why = .completed
  | m :: _, why => (stop m = some why ∧ why ≠ .insufficient ∧ why ≠ .completed) ∨ (stop m = none ∧ why = .insufficient ∧ full m)

/-- each call of `func` on a source that reads (`R`) as `ms` writes `out` of the first marks, as many as fit and are not to be
stopped at -/
def Works (func : Func) (R : List Nat → List Mark → Prop) (stop : Mark → Option Reason) (out : Mark → List Nat) : Prop :=
  ∀ room src ms, R src ms → ∃ done todo why ev, ms = done ++ todo ∧ (∀ m ∈ done, stop m = none) ∧
    (done.flatMap out).length ≤ room ∧ func room src = some ⟨src.drop (extent done), done.flatMap out, why, ev⟩ ∧
    Ends stop (fun m => room < (done.flatMap out).length + (out m).length) todo why

/-- the rest of a source reads as the rest of the marks -/
structure Reads (R : List Nat → List Mark → Prop) : Prop where
  drop : ∀ src a b, R src (a ++ b) → R (src.drop (extent a)) b
  length : ∀ src ms, R src ms → ms.length ≤ src.length

theorem extent_append (a b : List Mark) : extent (a ++ b) = extent a + extent b := by simp [extent]

theorem takeWhile_split {stop : Mark → Option Reason} {a b : List Mark} (h : ∀ m ∈ a, stop m = none) :
    (a ++ b).takeWhile (fun m => (stop m).isNone) = a ++ b.takeWhile (fun m => (stop m).isNone) := by
  rw [List.takeWhile_append_of_pos]
  intro m hm; simp [h m hm]

variable {σ : Type} {D : Dest Nat σ} {Rep : σ → List Nat → Prop} {func toU32 fromU32 : Func}
  {R : List Nat → List Mark → Prop} {stop : Mark → Option Reason} {out : Mark → List Nat}

theorem Works.loop (L : Lawful D Rep) (W : Works func R stop out) (HR : Reads R) (ho : ∀ m, (out m).length ≤ 64) (fuel : Nat) :
    ∀ (s : σ) (t src : List Nat) (ms : List Mark), R src ms → Rep s t →
      (ms.length + 1 < fuel ∨ (ms.length < fuel ∧ 64 ≤ D.space s)) →
      ∃ s' q done todo, transcodeLoop D func fuel s src = some (s', q) ∧ (D.good s' = true → D.good s = true) ∧
        ms = done ++ todo ∧ (∀ m ∈ done, stop m = none) ∧ q.count = (done.flatMap out).length ∧
        q.rest = src.drop (extent done) ∧ Rep s' (t ++ done.flatMap out) ∧
        Ends stop (fun _ => D.good s' = false) todo q.why := by
  induction fuel with
  | zero => intro s t src ms _ _ h; omega
  | succ fuel ih =>
    intro s t src ms hR hr hf
    unfold transcodeLoop
    obtain ⟨done, todo, why, ev, e0, hn, hl, e1, hE⟩ := W (D.space s) src ms hR
    rw [e1]
    obtain ⟨s1, ep, r1, sz1, g1⟩ := L.poke s t (done.flatMap out) hr hl
    dsimp only
    rw [ep]
    dsimp only
    by_cases hw : why = .insufficient
    · subst hw
      rw [if_neg (by simp)]
      rcases todo with _ | ⟨m, todo⟩
      · cases hE
      rcases hE with ⟨_, h, _⟩ | ⟨hm, _, hfull⟩
      · exact absurd rfl h
      have h64 := ho m
      obtain ⟨r2, sp2, g2⟩ := L.recycle s1 _ r1 (by omega)
      have hdone : 64 ≤ D.space s → 1 ≤ done.length := by
        intro h; rcases done with _ | ⟨a, b⟩
        · simp at hfull; omega
        · simp
      have hlen : ms.length = done.length + todo.length + 1 := by rw [e0]; simp; omega
      by_cases hg : D.good (D.recycle s1) = true
      · rw [if_neg (by simp [hg])]
        obtain ⟨s', q, d2, t2, e3, g3, b0, b1, b2, b3, b4, b5⟩ := ih (D.recycle s1) (t ++ done.flatMap out)
          (src.drop (extent done)) (m :: todo) (HR.drop _ _ _ (e0 ▸ hR)) r2
          (by simp only [List.length_cons]
              rcases hf with hf | ⟨hf, hf2⟩
              · right; constructor <;> omega
              · have := hdone hf2; right; constructor <;> omega)
        rw [e3]
        refine ⟨s', _, done ++ d2, t2, rfl, fun g => g1 ▸ g2 (g3 g), by rw [e0, b0, List.append_assoc], ?_, ?_, ?_, ?_, b5⟩
        · intro x hx
          rcases List.mem_append.1 hx with h | h
          · exact hn x h
          · exact b1 x h
        · dsimp only; rw [b2, List.flatMap_append, List.length_append]
        · dsimp only; rw [b3, List.drop_drop, extent_append]
        · rw [List.flatMap_append, ← List.append_assoc]; exact b4
      · rw [if_pos (by simpa using hg)]
        exact ⟨D.recycle s1, _, done, m :: todo, rfl, fun g => g1 ▸ g2 g, e0, hn, rfl, rfl, r2,
          .inr ⟨hm, rfl, by simpa using hg⟩⟩
    · rw [if_pos hw]
      refine ⟨s1, _, done, todo, rfl, fun g => g1 ▸ g, e0, hn, rfl, rfl, r1, ?_⟩
      rcases todo with _ | ⟨m, todo⟩
      · exact hE
      · rcases hE with h | ⟨_, h, _⟩
        · exact .inl h
        · exact absurd h hw

/-- `transcode(func, src, src_end, dst, …)`; if the destination has failed the position is still right -/
theorem Works.dest (L : Lawful D Rep) (W : Works func R stop out) (HR : Reads R) (ho : ∀ m, (out m).length ≤ 64)
    (s : σ) (t src : List Nat) (ms : List Mark) (hR : R src ms) (hr : Rep s t) :
    ∃ s' q done todo, transcodeTo D func s src = some (s', q) ∧ (D.good s' = true → D.good s = true) ∧
      ms = done ++ todo ∧ (∀ m ∈ done, stop m = none) ∧ q.count = (done.flatMap out).length ∧
      q.rest = src.drop (extent done) ∧ Rep s' (t ++ done.flatMap out) ∧
      (Ends stop (fun _ => D.good s' = false) todo q.why ∨ (D.good s' = false ∧ q.why = .insufficient)) := by
  unfold transcodeTo
  by_cases hg : D.good s = true
  · rw [if_neg (by simp [hg])]
    obtain ⟨s', q, d, td, e, g, h1, h2, h3, h4, h5, h6⟩ := W.loop L HR ho (src.length + 2) s t src ms hR hr
      (by have := HR.length _ _ hR; omega)
    exact ⟨s', q, d, td, e, g, h1, h2, h3, h4, h5, .inl h6⟩
  · rw [if_pos (by simpa using hg)]
    exact ⟨s, _, [], ms, rfl, id, rfl, by simp, rfl, by simp [extent], by simpa using hr, .inr ⟨by simpa using hg, rfl⟩⟩

/-! ## Through UTF-32 -/

/-- each call of `fromU32` encodes the first code points, as many as fit and are not to be stopped at -/
def Encodes (fromU32 : Func) (ok : Nat → Prop) (enc : Nat → List Nat) (stopU : Nat → Bool) : Prop :=
  ∀ room cs, (∀ c ∈ cs, ok c) → ∃ x y why ev, cs = x ++ y ∧ (∀ c ∈ x, stopU c = false) ∧ (x.flatMap enc).length ≤ room ∧
    fromU32 room cs = some ⟨y, x.flatMap enc, why, ev⟩ ∧
    match y with
    | [] => why = .completed
    | c :: _ => (stopU c = true ∧ why = .unsupported) ∨
        (stopU c = false ∧ why = .insufficient ∧ room < (x.flatMap enc).length + (enc c).length)

/-- decode_encode to a pointer range with a pivot buffer of `P` code points -/
def dePtr (P : Nat) (toU32 fromU32 : Func) : Nat → Nat → List Nat → Option DEPtr
  | 0, _, _ => none
  | fuel + 1, room, src =>
    match toU32 P src with
    | none => none
    | some r =>
      match fromU32 room r.out with
      | none => none
      | some q =>
        if q.why = .completed then
          if r.why = .insufficient then
            match dePtr P toU32 fromU32 fuel (room - q.out.length) r.rest with
            | none => none
            | some x => some { x with out := q.out ++ x.out, events := r.events ++ q.events ++ x.events }
          else some ⟨r.rest, q.out, 0, r.why, r.events ++ q.events⟩
        else some ⟨src, q.out, r.out.length - q.rest.length, q.why, r.events ++ q.events⟩

theorem decodeEncodePtr_eq (fuel : Nat) : ∀ room src,
    Charset.decodeEncodePtr toU32 fromU32 fuel room src = dePtr 16 toU32 fromU32 fuel room src := by
  induction fuel with
  | zero => intro _ _; rfl
  | succ fuel ih =>
    intro room src
    unfold Charset.decodeEncodePtr dePtr
    simp only [ih]
    rfl

/-- the size function says what the encoding function does -/
def SizeAgrees (size : SizeFunc) (fromU32 : Func) (ok : Nat → Prop) : Prop :=
  ∀ limit cs, (∀ c ∈ cs, ok c) → size limit cs = (fromU32 limit cs).map fun r => ⟨r.out.length, r.rest, r.why⟩

/-- why decode_encode ends before `todo` -/
def PivotEnds (stopA : Mark → Option Reason) (stopU : Nat → Bool) (full : Mark → Prop) (near : List Mark) :
    List Mark → Reason → Prop
  | [], why => near = [] ∧ why = .completed
  | m :: _, why => (near = [] ∧ stopA m = some why ∧ why ≠ .insufficient ∧ why ≠ .completed) ∨
      (stopA m = none ∧ stopU m.char = true ∧ why = .unsupported) ∨
      (stopA m = none ∧ stopU m.char = false ∧ why = .insufficient ∧ full m)

variable {ok : Nat → Prop} {enc : Nat → List Nat} {stopU : Nat → Bool}

theorem flatMap_char (l : List Mark) : l.flatMap (fun m => [m.char]) = l.map Mark.char := by
  induction l with
  | nil => rfl
  | cons a l ih => simp [ih]

theorem char_split {l : List Mark} {x y : List Nat} (h : l.map Mark.char = x ++ y) :
    ∃ a b, l = a ++ b ∧ a.map Mark.char = x ∧ b.map Mark.char = y := List.map_eq_append_iff.1 h

theorem pivot_ptr (WA : Works toU32 R stop fun m => [m.char]) (HR : Reads R) (WB : Encodes fromU32 ok enc stopU)
    (hok : ∀ src ms, R src ms → ∀ m ∈ ms, ok m.char) {P : Nat} (hP : 1 ≤ P) (fuel : Nat) :
    ∀ (room : Nat) (src : List Nat) (ms : List Mark), R src ms → ms.length < fuel →
      ∃ x, dePtr P toU32 fromU32 fuel room src = some x ∧
        (∀ size, SizeAgrees size fromU32 ok →
          Charset.decodeEncodeSize P toU32 size fuel room src = some ⟨x.out.length, x.stale, x.u32dist, x.why, []⟩) ∧
        ∃ done near todo, ms = done ++ near ++ todo ∧ (∀ m ∈ done ++ near, stop m = none ∧ stopU m.char = false) ∧
          x.out = (done ++ near).flatMap (fun m => enc m.char) ∧ x.out.length ≤ room ∧ x.stale = src.drop (extent done) ∧
          x.u32dist = near.length ∧
          PivotEnds stop stopU (fun m => room < x.out.length + (enc m.char).length) near todo x.why := by
  induction fuel with
  | zero => intro room src ms _ h; omega
  | succ fuel ih =>
    intro room src ms hR hf
    obtain ⟨d1, t1, w1, ev1, e0, hn, hl, e1, hE⟩ := WA P src ms hR
    rw [flatMap_char] at hl e1 hE
    simp only [List.length_map, List.length_singleton] at hl hE
    have hok1 : ∀ c ∈ d1.map Mark.char, ok c := by
      intro c hc
      obtain ⟨m, hm, rfl⟩ := List.mem_map.1 hc
      exact hok src ms hR m (by rw [e0]; simp [hm])
    obtain ⟨x, y, w2, ev2, e2, hx, hlr, e3, hy⟩ := WB room _ hok1
    obtain ⟨a, b, e4, e5, e6⟩ := char_split e2
    have hxf : x.flatMap enc = a.flatMap (fun m => enc m.char) := by rw [← e5, List.flatMap_map]
    unfold dePtr Charset.decodeEncodeSize
    rw [e1]
    dsimp only
    rw [e3]
    dsimp only
    have hsz : ∀ size, SizeAgrees size fromU32 ok → size room (d1.map Mark.char) = some ⟨(x.flatMap enc).length, y, w2⟩ := by
      intro size hs
      rw [hs room _ hok1, e3]; rfl
    have ha : ∀ m ∈ a, stop m = none ∧ stopU m.char = false := fun m hm =>
      ⟨hn m (by rw [e4]; simp [hm]), hx _ (by rw [← e5]; exact List.mem_map_of_mem hm)⟩
    rcases y with _ | ⟨c, y⟩
    · dsimp only at hy
      subst hy
      have hb : b = [] := by simpa using e6
      subst hb
      rw [List.append_nil] at e4
      subst e4
      rw [if_pos rfl]
      by_cases hw : w1 = .insufficient
      · subst hw
        rw [if_pos rfl]
        rcases t1 with _ | ⟨m, t1⟩
        · cases hE
        rcases hE with ⟨_, h, _⟩ | ⟨hm, _, hfull⟩
        · exact absurd rfl h
        obtain ⟨z, ez, hz, done, near, todo, b0, b1, b2, b3, b4, b5, b6⟩ := ih (room - (x.flatMap enc).length)
          (src.drop (extent d1)) (m :: t1) (HR.drop _ _ _ (e0 ▸ hR)) (by rw [e0] at hf; simp at hf ⊢; omega)
        rw [ez]
        refine ⟨_, rfl, ?_, d1 ++ done, near, todo, by rw [e0, b0]; simp, ?_, ?_, ?_, ?_, b5, ?_⟩
        · intro size hs
          rw [hsz size hs]
          dsimp only
          rw [if_pos rfl, if_pos rfl, hz size hs]
          simp only [List.length_append]
        · intro p hp
          rw [List.append_assoc] at hp
          rcases List.mem_append.1 hp with h | h
          · exact ha p h
          · exact b1 p h
        · dsimp only; rw [b2, hxf]; simp
        · dsimp only; rw [List.length_append]; omega
        · dsimp only; rw [b4, List.drop_drop, extent_append]
        · dsimp only
          rcases todo with _ | ⟨p, todo⟩
          · exact b6
          · rcases b6 with h | h | ⟨h1, h2, h3, h4⟩
            · exact .inl h
            · exact .inr (.inl h)
            · exact .inr (.inr ⟨h1, h2, h3, by rw [List.length_append]; omega⟩)
      · rw [if_neg hw]
        refine ⟨_, rfl, ?_, d1, [], t1, by rw [e0, List.append_nil], by simpa using ha, by simpa using hxf, hlr, rfl, rfl, ?_⟩
        · intro size hs
          rw [hsz size hs]
          dsimp only
          rw [if_pos rfl, if_neg hw]
        · rcases t1 with _ | ⟨m, t1⟩
          · exact ⟨rfl, hE⟩
          · rcases hE with ⟨h1, h2, h3⟩ | ⟨_, h, _⟩
            · exact .inl ⟨rfl, h1, h2, h3⟩
            · exact absurd h hw
    · dsimp only at hy
      have hw : w2 ≠ .completed := by
        rcases hy with ⟨_, h⟩ | ⟨_, h, _⟩ <;> rw [h] <;> simp
      rw [if_neg hw]
      rcases b with _ | ⟨m, b⟩
      · cases e6
      simp only [List.map_cons, List.cons.injEq] at e6
      obtain ⟨rfl, rfl⟩ := e6
      have hu : (d1.map Mark.char).length - (m.char :: b.map Mark.char).length = a.length := by
        rw [e4]; simp
      have hm : stop m = none := hn m (by rw [e4]; simp)
      refine ⟨_, rfl, ?_, [], a, m :: b ++ t1, by rw [e0, e4]; simp, by simpa using ha, by simpa using hxf, hlr, by simp [extent], hu, ?_⟩
      · intro size hs
        rw [hsz size hs]
        dsimp only
        rw [if_neg hw]
      · rcases hy with ⟨h1, h2⟩ | ⟨h1, h2, h3⟩
        · exact .inr (.inl ⟨hm, h1, h2⟩)
        · exact .inr (.inr ⟨hm, h1, h2, h3⟩)

/-! ### To a destination -/

theorem encodes_pivot (L : Lawful D Rep) (WB : Encodes fromU32 ok enc stopU) (henc : ∀ c, (enc c).length ≤ 64) (fuel : Nat) :
    ∀ (s : σ) (t cs : List Nat), (∀ c ∈ cs, ok c) → Rep s t →
      (cs.length + 1 < fuel ∨ (cs.length < fuel ∧ 64 ≤ D.space s)) →
      ∃ x y s' ev, cs = x ++ y ∧ (∀ c ∈ x, stopU c = false) ∧ Rep s' (t ++ x.flatMap enc) ∧
        (D.good s' = true → D.good s = true) ∧
        match y with
        | [] => encodePivot D fromU32 fuel s cs = some (.next s' (x.flatMap enc).length ev)
        | c :: y' => (stopU c = true ∧ encodePivot D fromU32 fuel s cs = some (.ret s' (x.flatMap enc).length (c :: y') .unsupported ev)) ∨
            (stopU c = false ∧ D.good s' = false ∧
              encodePivot D fromU32 fuel s cs = some (.ret s' (x.flatMap enc).length (c :: y') .insufficient ev)) := by
  induction fuel with
  | zero => intro s t cs _ _ h; omega
  | succ fuel ih =>
    intro s t cs hok hr hf
    unfold encodePivot
    obtain ⟨x, y, w, ev, e0, hx, hl, e1, hy⟩ := WB (D.space s) cs hok
    rw [e1]
    obtain ⟨s1, ep, r1, sz1, g1⟩ := L.poke s t (x.flatMap enc) hr hl
    dsimp only
    rw [ep]
    dsimp only
    rcases y with _ | ⟨c, y⟩
    · dsimp only at hy
      subst hy
      rw [if_pos rfl]
      exact ⟨x, [], s1, ev, e0, hx, r1, fun g => g1 ▸ g, rfl⟩
    · dsimp only at hy
      rcases hy with ⟨h1, rfl⟩ | ⟨h1, rfl, h3⟩
      · rw [if_neg (by simp), if_neg (by simp)]
        exact ⟨x, c :: y, s1, ev, e0, hx, r1, fun g => g1 ▸ g, .inl ⟨h1, rfl⟩⟩
      · rw [if_neg (by simp), if_pos rfl]
        have h64 := henc c
        obtain ⟨r2, sp2, g2⟩ := L.recycle s1 _ r1 (by omega)
        have hdone : 64 ≤ D.space s → 1 ≤ x.length := by
          intro h; rcases x with _ | ⟨a, b⟩
          · simp at h3; omega
          · simp
        have hlen : cs.length = x.length + y.length + 1 := by rw [e0]; simp; omega
        by_cases hg : D.good (D.recycle s1) = true
        · rw [if_neg (by simp [hg])]
          obtain ⟨x2, y2, s', ev', b0, b1, b2, b3, b4⟩ := ih (D.recycle s1) (t ++ x.flatMap enc) (c :: y)
            (fun z hz => hok z (by rw [e0]; exact List.mem_append_right _ hz)) r2
            (by simp only [List.length_cons]
                rcases hf with hf | ⟨hf, hf2⟩
                · right; constructor <;> omega
                · have := hdone hf2; right; constructor <;> omega)
          refine ⟨x ++ x2, y2, s', ev ++ ev', by rw [e0, b0, List.append_assoc], ?_, ?_, fun g => g1 ▸ g2 (b3 g), ?_⟩
          · intro z hz
            rcases List.mem_append.1 hz with h | h
            · exact hx z h
            · exact b1 z h
          · rw [List.flatMap_append, ← List.append_assoc]; exact b2
          · rcases y2 with _ | ⟨c2, y2⟩
            · dsimp only at b4 ⊢
              rw [b4]; simp
            · dsimp only at b4 ⊢
              rcases b4 with ⟨k1, k2⟩ | ⟨k1, k2, k3⟩
              · rw [k2]; exact .inl ⟨k1, by simp⟩
              · rw [k3]; exact .inr ⟨k1, k2, by simp⟩
        · rw [if_pos (by simpa using hg)]
          exact ⟨x, c :: y, D.recycle s1, ev, e0, hx, r2, fun g => g1 ▸ g2 g, .inr ⟨h1, by simpa using hg, rfl⟩⟩

theorem pivot_loop (L : Lawful D Rep) (WA : Works toU32 R stop fun m => [m.char]) (HR : Reads R)
    (WB : Encodes fromU32 ok enc stopU) (henc : ∀ c, (enc c).length ≤ 64) (hok : ∀ src ms, R src ms → ∀ m ∈ ms, ok m.char)
    (fuel : Nat) : ∀ (s : σ) (t src : List Nat) (ms : List Mark), R src ms → Rep s t → ms.length < fuel →
      ∃ s' q done near todo, decodeEncodeLoop D toU32 fromU32 fuel s src = some (s', q) ∧ (D.good s' = true → D.good s = true) ∧
        ms = done ++ near ++ todo ∧ (∀ m ∈ done ++ near, stop m = none ∧ stopU m.char = false) ∧
        q.count = ((done ++ near).flatMap fun m => enc m.char).length ∧ q.stale = src.drop (extent done) ∧
        q.u32dist = near.length ∧ Rep s' (t ++ (done ++ near).flatMap fun m => enc m.char) ∧
        PivotEnds stop stopU (fun _ => D.good s' = false) near todo q.why := by
  induction fuel with
  | zero => intro s t src ms _ _ h; omega
  | succ fuel ih =>
    intro s t src ms hR hr hf
    obtain ⟨d1, t1, w1, ev1, e0, hn, hl, e1, hE⟩ := WA 16 src ms hR
    rw [flatMap_char] at hl e1 hE
    simp only [List.length_map, List.length_singleton] at hl hE
    have hok1 : ∀ c ∈ d1.map Mark.char, ok c := by
      intro c hc
      obtain ⟨m, hm, rfl⟩ := List.mem_map.1 hc
      exact hok src ms hR m (by rw [e0]; simp [hm])
    obtain ⟨x, y, s1, ev2, e2, hx, r1, g1, hy⟩ := encodes_pivot L WB henc ((d1.map Mark.char).length + 2) s t _ hok1 hr (by omega)
    obtain ⟨a, b, e4, e5, e6⟩ := char_split e2
    have hxf : x.flatMap enc = a.flatMap (fun m => enc m.char) := by rw [← e5, List.flatMap_map]
    rw [hxf] at r1
    unfold decodeEncodeLoop
    rw [e1]
    dsimp only
    have ha : ∀ m ∈ a, stop m = none ∧ stopU m.char = false := fun m hm =>
      ⟨hn m (by rw [e4]; simp [hm]), hx _ (by rw [← e5]; exact List.mem_map_of_mem hm)⟩
    rcases y with _ | ⟨c, y⟩
    · dsimp only at hy
      rw [hy]
      dsimp only
      have hb : b = [] := by simpa using e6
      subst hb
      rw [List.append_nil] at e4
      subst e4
      by_cases hw : w1 = .insufficient
      · subst hw
        rw [if_pos rfl]
        rcases t1 with _ | ⟨m, t1⟩
        · cases hE
        rcases hE with ⟨_, h, _⟩ | ⟨hm, _, hfull⟩
        · exact absurd rfl h
        obtain ⟨s', q, done, near, todo, ez, g3, b0, b1, b2, b3, b4, b5, b6⟩ := ih s1 (t ++ d1.flatMap fun m => enc m.char)
          (src.drop (extent d1)) (m :: t1) (HR.drop _ _ _ (e0 ▸ hR)) r1 (by rw [e0] at hf; simp at hf ⊢; omega)
        rw [ez]
        refine ⟨s', _, d1 ++ done, near, todo, rfl, fun g => g1 (g3 g), by rw [e0, b0]; simp, ?_, ?_, ?_, b4, ?_, b6⟩
        · intro p hp
          rw [List.append_assoc] at hp
          rcases List.mem_append.1 hp with h | h
          · exact ha p h
          · exact b1 p h
        · dsimp only; rw [b2, hxf]; simp only [List.flatMap_append, List.length_append]; omega
        · dsimp only; rw [b3, List.drop_drop, extent_append]
        · rw [List.append_assoc, List.flatMap_append, ← List.append_assoc]; exact b5
      · rw [if_neg hw]
        refine ⟨s1, _, d1, [], t1, rfl, g1, by rw [e0, List.append_nil], by simpa using ha, by rw [hxf, List.append_nil], rfl, rfl,
          by simpa using r1, ?_⟩
        rcases t1 with _ | ⟨m, t1⟩
        · exact ⟨rfl, hE⟩
        · rcases hE with ⟨h1, h2, h3⟩ | ⟨_, h, _⟩
          · exact .inl ⟨rfl, h1, h2, h3⟩
          · exact absurd h hw
    · dsimp only at hy
      rcases b with _ | ⟨m, b⟩
      · cases e6
      simp only [List.map_cons, List.cons.injEq] at e6
      obtain ⟨rfl, rfl⟩ := e6
      have hu : (d1.map Mark.char).length - (m.char :: b.map Mark.char).length = a.length := by
        rw [e4]; simp
      have hm : stop m = none := hn m (by rw [e4]; simp)
      rcases hy with ⟨h1, h2⟩ | ⟨h1, h3, h2⟩
      · rw [h2]
        exact ⟨s1, _, [], a, m :: b ++ t1, rfl, g1, by rw [e0, e4]; simp, by simpa using ha, by simp [hxf], by simp [extent], hu,
          by simpa using r1, .inr (.inl ⟨hm, h1, rfl⟩)⟩
      · rw [h2]
        exact ⟨s1, _, [], a, m :: b ++ t1, rfl, g1, by rw [e0, e4]; simp, by simpa using ha, by simp [hxf], by simp [extent], hu,
          by simpa using r1, .inr (.inr ⟨hm, h1, rfl, h3⟩)⟩

theorem pivot_dest (L : Lawful D Rep) (WA : Works toU32 R stop fun m => [m.char]) (HR : Reads R)
    (WB : Encodes fromU32 ok enc stopU) (henc : ∀ c, (enc c).length ≤ 64) (hok : ∀ src ms, R src ms → ∀ m ∈ ms, ok m.char)
    (s : σ) (t src : List Nat) (ms : List Mark) (hR : R src ms) (hr : Rep s t) :
      ∃ s' q done near todo, decodeEncodeTo D toU32 fromU32 s src = some (s', q) ∧ (D.good s' = true → D.good s = true) ∧
        ms = done ++ near ++ todo ∧ (∀ m ∈ done ++ near, stop m = none ∧ stopU m.char = false) ∧
        q.count = ((done ++ near).flatMap fun m => enc m.char).length ∧ q.stale = src.drop (extent done) ∧
        q.u32dist = near.length ∧ Rep s' (t ++ (done ++ near).flatMap fun m => enc m.char) ∧
        (PivotEnds stop stopU (fun _ => D.good s' = false) near todo q.why ∨ (D.good s' = false ∧ q.why = .insufficient)) := by
  unfold decodeEncodeTo
  by_cases hg : D.good s = true
  · rw [if_neg (by simp [hg])]
    obtain ⟨s', q, d, n, td, e, g, h1, h2, h3, h4, h5, h6, h7⟩ := pivot_loop L WA HR WB henc hok (src.length + 1) s t src ms hR hr
      (by have := HR.length _ _ hR; omega)
    exact ⟨s', q, d, n, td, e, g, h1, h2, h3, h4, h5, h6, .inl h7⟩
  · rw [if_pos (by simpa using hg)]
    exact ⟨s, _, [], [], ms, rfl, id, rfl, by simp, rfl, by simp [extent], rfl, by simpa using hr, .inr ⟨by simpa using hg, rfl⟩⟩

end Strf.Transcode

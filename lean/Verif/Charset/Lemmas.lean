import Verif.Charset.Model
import Verif.Dest.Lawful
/-! # Transcoding through buffers of any size -/
namespace Strf.Charset
open Strf.Utf (Reason)
open Strf.Dest (Dest Lawful Prints After)

/-- What a transcoding function does with one character or one invalid sequence of the source. -/
structure Piece where
  out : List Nat
  adv : Nat
  events : List Event

/-- All that is written for a list of pieces. -/
def outs (ps : List Piece) : List Nat := ps.flatMap Piece.out
/-- All notifications for a list of pieces. -/
def evs (ps : List Piece) : List Event := ps.flatMap Piece.events

/-- Source units taken by a list of pieces. -/
def advs (ps : List Piece) : Nat := (ps.map Piece.adv).sum

/-- `func`, given the source `src`, handles the pieces one by one, each when there is room for it, and then ends
with reason `why`, remaining source `rest` and notifications `ev`. -/
inductive Scripted (func : Func) : List Nat → List Piece → Reason → List Nat → List Event → Prop
  | done {src : List Nat} {why : Reason} {ev : List Event} :
      why ≠ .insufficient → (∀ room, func room src = some ⟨src, [], why, ev⟩) → Scripted func src [] why src ev
  | more {src : List Nat} {p : Piece} {ps : List Piece} {why : Reason} {rest : List Nat} {ev : List Event} :
      1 ≤ p.out.length → p.out.length ≤ 64 → 1 ≤ p.adv → p.adv ≤ src.length →
      (∀ room, room < p.out.length → func room src = some ⟨src, [], .insufficient, p.events⟩) →
      (∀ room, p.out.length ≤ room → func room src = (func (room - p.out.length) (src.drop p.adv)).map fun r =>
        ⟨r.rest, p.out ++ r.out, r.why, p.events ++ r.events⟩) →
      Scripted func (src.drop p.adv) ps why rest ev → Scripted func src (p :: ps) why rest ev

variable {func : Func}

theorem Scripted.why_ne {src : List Nat} {ps : List Piece} {why : Reason} {rest : List Nat} {ev : List Event}
    (h : Scripted func src ps why rest ev) : why ≠ .insufficient := by
  induction h with
  | done hw _ => exact hw
  | more _ _ _ _ _ _ _ ih => exact ih

theorem Scripted.length_le {src : List Nat} {ps : List Piece} {why : Reason} {rest : List Nat} {ev : List Event}
    (h : Scripted func src ps why rest ev) : ps.length ≤ src.length := by
  induction h with
  | done hw _ => exact Nat.zero_le _
  | more _ _ h1 h2 _ _ _ ih =>
    rw [List.length_drop] at ih; rw [List.length_cons]; omega

/-- One call: some of the pieces are done, and either all of them are, or the next one has no room. -/
theorem Scripted.call {src : List Nat} {ps : List Piece} {why : Reason} {rest : List Nat} {ev : List Event}
    (h : Scripted func src ps why rest ev) : ∀ room,
    (func room src = some ⟨rest, outs ps, why, evs ps ++ ev⟩ ∧ (outs ps).length ≤ room) ∨
    ∃ done p todo rest', ps = done ++ p :: todo ∧
      func room src = some ⟨rest', outs done, .insufficient, evs done ++ p.events⟩ ∧
      (outs done).length ≤ room ∧ room < (outs done).length + p.out.length ∧
      rest' = src.drop (advs done) ∧ Scripted func rest' (p :: todo) why rest ev := by
  induction h with
  | done hw hf => intro room; exact .inl ⟨by rw [hf]; rfl, by simp [outs]⟩
  | @more src p ps why rest ev h1 h2 h3 h4 h5 h6 h7 ih =>
    intro room
    by_cases hr : room < p.out.length
    · exact .inr ⟨[], p, ps, src, rfl, by rw [h5 _ hr]; simp [outs, evs], by simp [outs], by simpa [outs] using hr, by simp [advs],
        .more h1 h2 h3 h4 h5 h6 h7⟩
    · have hr : p.out.length ≤ room := by omega
      rcases ih (room - p.out.length) with ⟨e, hl⟩ | ⟨done, q, todo, rest', e0, e1, hl, hl2, ea, hs⟩
      · refine .inl ⟨?_, ?_⟩
        · rw [h6 _ hr, e]; simp [outs, evs]
        · simp only [outs, List.flatMap_cons, List.length_append] at hl ⊢; omega
      · refine .inr ⟨p :: done, q, todo, rest', by rw [e0]; rfl, ?_, ?_, ?_, by rw [ea, List.drop_drop]; simp [advs], hs⟩
        · rw [h6 _ hr, e1]; simp [outs, evs]
        · simp only [outs, List.flatMap_cons, List.length_append] at hl ⊢; omega
        · simp only [outs, List.flatMap_cons, List.length_append] at hl2 ⊢; omega

/-- With enough room one call does all. -/
theorem Scripted.call_all {src : List Nat} {ps : List Piece} {why : Reason} {rest : List Nat} {ev : List Event}
    (h : Scripted func src ps why rest ev) {room : Nat} (hr : (outs ps).length ≤ room) :
    func room src = some ⟨rest, outs ps, why, evs ps ++ ev⟩ := by
  rcases h.call room with ⟨e, _⟩ | ⟨done, p, todo, rest', e0, _, _, h3, _, _⟩
  · exact e
  · rw [e0] at hr; simp [outs] at hr h3; omega

/-- The notifications for a list of pieces, where those of any piece may be repeated once. -/
inductive Repeats : List (List Event) → List Event → Prop
  | nil : Repeats [] []
  | once {e : List Event} {es : List (List Event)} {l : List Event} : Repeats es l → Repeats (e :: es) (e ++ l)
  | twice {e : List Event} {es : List (List Event)} {l : List Event} : Repeats es l → Repeats (e :: es) (e ++ (e ++ l))

theorem Repeats.refl (es : List (List Event)) : Repeats es es.flatten := by
  induction es with
  | nil => exact .nil
  | cons e es ih => exact .once ih

theorem Repeats.append {a b : List (List Event)} {x y : List Event} (ha : Repeats a x) (hb : Repeats b y) :
    Repeats (a ++ b) (x ++ y) := by
  induction ha with
  | nil => exact hb
  | once _ ih => rw [List.append_assoc]; exact .once ih
  | twice _ ih => rw [List.append_assoc, List.append_assoc]; exact .twice ih

theorem evs_eq (ps : List Piece) : evs ps = (ps.map Piece.events).flatten := by
  unfold evs; rw [List.flatMap_def]

theorem outs_append (a b : List Piece) : outs (a ++ b) = outs a ++ outs b := by simp [outs]
theorem evs_append (a b : List Piece) : evs (a ++ b) = evs a ++ evs b := by simp [evs]
theorem outs_cons (p : Piece) (b : List Piece) : outs (p :: b) = p.out ++ outs b := by simp [outs]
theorem evs_cons (p : Piece) (b : List Piece) : evs (p :: b) = p.events ++ evs b := by simp [evs]

variable {σ : Type} {D : Dest Nat σ} {Rep : σ → List Nat → Prop}

/-- The loop, started with room for the first piece: every piece is notified once or twice. -/
theorem transcodeLoop_spec (L : Lawful D Rep) {why : Reason} {rest : List Nat} {ev : List Event} (fuel : Nat) :
    ∀ (s : σ) (t src : List Nat) (ps : List Piece), Scripted func src ps why rest ev → Rep s t →
      (ps.length + 1 < fuel ∨ (ps.length < fuel ∧ 64 ≤ D.space s)) →
      ∃ s' q, transcodeLoop D func fuel s src = some (s', q) ∧ Rep s' (t ++ outs ps) ∧
        After τ D s s' (outs ps).length ∧
        ((q.why = why ∧ q.rest = rest ∧ q.count = (outs ps).length ∧
            ∃ l, q.events = l ++ ev ∧ Repeats (ps.map Piece.events) l ∧
              (64 ≤ D.space s → ∀ p ps', ps = p :: ps' →
                ∃ l', l = p.events ++ l' ∧ Repeats (ps'.map Piece.events) l')) ∨
         (D.good s' = false ∧ q.why = .insufficient ∧ ∃ done todo, ps = done ++ todo ∧ todo ≠ [] ∧
            q.count = (outs done).length ∧ Scripted func q.rest todo why rest ev)) := by
  induction fuel with
  | zero => intro s t src ps _ _ h; omega
  | succ fuel ih =>
    intro s t src ps hs hr hf
    unfold transcodeLoop
    rcases hs.call (D.space s) with ⟨e, hl⟩ | ⟨done, p, todo, rest', e0, e1, hl, hl2, ea, hs'⟩
    · rw [e]
      obtain ⟨s1, ep, r1, z1, g1⟩ := L.poke s t (outs ps) hr hl
      dsimp only
      rw [ep]
      dsimp only
      rw [if_pos hs.why_ne]
      refine ⟨s1, _, rfl, r1, .poke z1 g1, .inl ⟨rfl, rfl, rfl, evs ps, rfl, ?_, ?_⟩⟩
      · rw [evs_eq]; exact .refl _
      · rintro _ p ps' rfl
        exact ⟨evs ps', evs_cons _ _, by rw [evs_eq]; exact .refl _⟩
    · rw [e1]
      obtain ⟨s1, ep, r1, sz1, g1⟩ := L.poke s t (outs done) hr hl
      have h64 : p.out.length ≤ 64 := by cases hs' with | more _ h _ _ _ _ _ => exact h
      obtain ⟨r2, sp2, g2⟩ := L.recycle s1 _ r1 (by omega)
      dsimp only
      rw [ep]
      dsimp only
      rw [if_neg (by simp)]
      have h64 : p.out.length ≤ 64 := by cases hs' with | more _ h _ _ _ _ _ => exact h
      have hover : D.space s < (outs ps).length := by
        rw [e0, outs_append, outs_cons]; simp only [List.length_append]; omega
      have hlen : ps.length = done.length + todo.length + 1 := by rw [e0]; simp; omega
      have hdone : 64 ≤ D.space s → 1 ≤ done.length := by
        intro h; rcases done with _ | ⟨a, b⟩
        · simp [outs] at hl2; omega
        · simp
      by_cases hg : D.good (D.recycle s1) = true
      · rw [if_neg (by simp [hg])]
        obtain ⟨s', q, e3, r3, g3, h3⟩ := ih (D.recycle s1) (t ++ outs done) rest' (p :: todo) hs' r2
          (by simp only [List.length_cons]
              rcases hf with hf | ⟨hf, hf2⟩
              · right; constructor <;> omega
              · have := hdone hf2; right; constructor <;> omega)
        rw [e3]
        refine ⟨s', _, rfl, ?_, .over (fun g => g1 ▸ g2 (g3.1 g)) hover, ?_⟩
        · rw [e0, outs_append, ← List.append_assoc]; exact r3
        · dsimp only
          rcases h3 with ⟨w1, w2, w3, l, w4, w5, w6⟩ | ⟨b1, b2, d2, t2, b3, b4, b5, b6⟩
          · obtain ⟨l', rfl, hl'⟩ := w6 sp2 p todo rfl
            refine .inl ⟨w1, w2, ?_, evs done ++ (p.events ++ (p.events ++ l')), ?_, ?_, ?_⟩
            · rw [w3, e0, outs_append, List.length_append]
            · rw [w4]; simp
            · rw [e0, List.map_append, evs_eq]
              exact (Repeats.refl _).append (.twice hl')
            · intro h p1 ps1 e
              have := hdone h
              rcases done with _ | ⟨a, b⟩
              · simp at this
              · rw [e0] at e
                injection e with e2 e3
                subst e2 e3
                refine ⟨evs b ++ (p.events ++ (p.events ++ l')), by rw [evs_cons, List.append_assoc], ?_⟩
                show Repeats (List.map Piece.events (b ++ p :: todo)) _
                rw [List.map_append, evs_eq]
                exact (Repeats.refl _).append (.twice hl')
          · refine .inr ⟨b1, b2, done ++ d2, t2, by rw [e0, b3, List.append_assoc], b4, ?_, b6⟩
            rw [b5, outs_append, List.length_append]
      · rw [if_pos (by simpa using hg)]
        refine ⟨D.recycle s1, _, rfl, ?_, .over (fun g => g1 ▸ g2 g) hover, .inr ⟨by simpa using hg, rfl, done, p :: todo, e0,
          by simp, rfl, hs'⟩⟩
        rw [e0, outs_append, ← List.append_assoc]
        exact L.bad _ _ _ r2 (by simpa using hg)

/-- `transcode(func, src, src_end, dst, …)`: the text of the pieces is printed; unless the destination failed, the
result is that of a single call with a buffer large enough, except that notifications may be repeated. -/
theorem transcodeTo_spec (L : Lawful D Rep) {src : List Nat} {ps : List Piece} {why : Reason} {rest : List Nat}
    {ev : List Event} (h : Scripted func src ps why rest ev) (s : σ) (t : List Nat) (hr : Rep s t) :
    ∃ s' q, transcodeTo D func s src = some (s', q) ∧ Rep s' (t ++ outs ps) ∧
      After τ D s s' (outs ps).length ∧
      ((q.why = why ∧ q.rest = rest ∧ q.count = (outs ps).length ∧
          ∃ l, q.events = l ++ ev ∧ Repeats (ps.map Piece.events) l) ∨
       (D.good s' = false ∧ q.why = .insufficient ∧ ∃ done todo, ps = done ++ todo ∧
          q.count = (outs done).length ∧ Scripted func q.rest todo why rest ev)) := by
  unfold transcodeTo
  by_cases hg : D.good s = true
  · rw [if_neg (by simp [hg])]
    obtain ⟨s', q, e, r, g, h1⟩ := transcodeLoop_spec L (src.length + 2) s t src ps h hr
      (by have := h.length_le; omega)
    refine ⟨s', q, e, r, g, ?_⟩
    rcases h1 with ⟨a, b, c, l, d, f, _⟩ | ⟨a, b, d, t', e1, _, c, f⟩
    · exact .inl ⟨a, b, c, l, d, f⟩
    · exact .inr ⟨a, b, d, t', e1, c, f⟩
  · rw [if_pos (by simpa using hg)]
    exact ⟨s, _, rfl, L.bad _ _ _ hr (by simpa using hg), .of_bad (by simpa using hg) id, .inr ⟨by simpa using hg, rfl, [], ps, rfl, rfl, h⟩⟩

/-! ## Through a pivot buffer -/

/-- `fromU32` encodes each code point (of those satisfying `ok`) separately, as `enc c`, notifying `ev c`. -/
def CharWise (fromU32 : Func) (ok : Nat → Prop) (enc : Nat → List Nat) (ev : Nat → List Event) : Prop :=
  ∀ cs : List Nat, (∀ c ∈ cs, ok c) → Scripted fromU32 cs (cs.map fun c => ⟨enc c, 1, ev c⟩) .completed [] []

theorem outs_map (enc : Nat → List Nat) (ev : Nat → List Event) (cs : List Nat) :
    outs (cs.map fun c => ⟨enc c, 1, ev c⟩) = cs.flatMap enc := by
  unfold outs; rw [List.flatMap_map]

variable {toU32 fromU32 : Func}

theorem encodePivot_spec (L : Lawful D Rep) (fuel : Nat) :
    ∀ (s : σ) (t cs : List Nat) (ps : List Piece), Scripted fromU32 cs ps .completed [] [] → Rep s t →
      (ps.length + 1 < fuel ∨ (ps.length < fuel ∧ 64 ≤ D.space s)) →
      (∃ s' evl, encodePivot D fromU32 fuel s cs = some (.next s' (outs ps).length evl) ∧ Rep s' (t ++ outs ps) ∧
        After τ D s s' (outs ps).length) ∨
      (∃ s' n left evl done todo, encodePivot D fromU32 fuel s cs = some (.ret s' n left .insufficient evl) ∧
        D.good s' = false ∧ Rep s' (t ++ outs ps) ∧ ps = done ++ todo ∧ n = (outs done).length ∧
        left = cs.drop (advs done) ∧ After τ D s s' (outs ps).length) := by
  induction fuel with
  | zero => intro s t cs ps _ _ h; omega
  | succ fuel ih =>
    intro s t cs ps hs hr hf
    unfold encodePivot
    rcases hs.call (D.space s) with ⟨e, hl⟩ | ⟨done, p, todo, rest', e0, e1, hl, hl2, ea, hs'⟩
    · rw [e]
      obtain ⟨s1, ep, r1, z1, g1⟩ := L.poke s t (outs ps) hr hl
      dsimp only
      rw [ep]
      dsimp only
      rw [if_pos rfl]
      exact .inl ⟨s1, _, rfl, r1, .poke z1 g1⟩
    · rw [e1]
      obtain ⟨s1, ep, r1, sz1, g1⟩ := L.poke s t (outs done) hr hl
      have h64 : p.out.length ≤ 64 := by cases hs' with | more _ h _ _ _ _ _ => exact h
      obtain ⟨r2, sp2, g2⟩ := L.recycle s1 _ r1 (by omega)
      dsimp only
      rw [ep]
      dsimp only
      rw [if_neg (by simp), if_pos rfl]
      have h64 : p.out.length ≤ 64 := by cases hs' with | more _ h _ _ _ _ _ => exact h
      have hover : D.space s < (outs ps).length := by
        rw [e0, outs_append, outs_cons]; simp only [List.length_append]; omega
      have hlen : ps.length = done.length + todo.length + 1 := by rw [e0]; simp; omega
      have hdone : 64 ≤ D.space s → 1 ≤ done.length := by
        intro h; rcases done with _ | ⟨a, b⟩
        · simp [outs] at hl2; omega
        · simp
      by_cases hg : D.good (D.recycle s1) = true
      · rw [if_neg (by simp [hg])]
        rcases ih (D.recycle s1) (t ++ outs done) rest' (p :: todo) hs' r2
          (by simp only [List.length_cons]
              rcases hf with hf | ⟨hf, hf2⟩
              · right; constructor <;> omega
              · have := hdone hf2; right; constructor <;> omega) with
            ⟨s', evl, e3, r3, g3⟩ | ⟨s', n, left, evl, d2, t2, e3, b1, b2, b3, b4, b5, b6⟩
        · rw [e3]
          dsimp only
          rw [e0, outs_append, List.length_append, ← List.append_assoc]
          exact .inl ⟨s', _, rfl, r3, .over (fun g => g1 ▸ g2 (g3.1 g)) (by rw [e0, outs_append, List.length_append] at hover; exact hover)⟩
        · rw [e3]
          dsimp only
          refine .inr ⟨s', _, _, _, done ++ d2, t2, rfl, b1, ?_, by rw [e0, b3, List.append_assoc], ?_, ?_, .over (fun g => g1 ▸ g2 (b6.1 g)) hover⟩
          · rw [e0, outs_append, ← List.append_assoc]; exact b2
          rotate_left
          · rw [b5, ea, List.drop_drop]; simp [advs]
          · rw [b4, outs_append, List.length_append]
      · rw [if_pos (by simpa using hg)]
        refine .inr ⟨D.recycle s1, _, _, _, done, p :: todo, rfl, by simpa using hg, ?_, e0, rfl, ea, .over (fun g => g1 ▸ g2 g) hover⟩
        rw [e0, outs_append, ← List.append_assoc]
        exact L.bad _ _ _ r2 (by simpa using hg)

/-- The pieces are code points. -/
def OneEach (ok : Nat → Prop) (ps : List Piece) : Prop := ∀ p ∈ ps, ∃ c, p.out = [c] ∧ ok c

theorem OneEach.length {ok : Nat → Prop} {ps : List Piece} (h : OneEach ok ps) : (outs ps).length = ps.length := by
  induction ps with
  | nil => rfl
  | cons p ps ih =>
    obtain ⟨c, hc, _⟩ := h p (by simp)
    rw [outs_cons, hc, List.length_append, ih fun q hq => h q (by simp [hq])]
    simp; omega

theorem OneEach.ok {ok : Nat → Prop} {ps : List Piece} (h : OneEach ok ps) : ∀ c ∈ outs ps, ok c := by
  intro c hc
  obtain ⟨p, hp, hc⟩ := List.mem_flatMap.1 hc
  obtain ⟨d, hd, ho⟩ := h p hp
  rw [hd] at hc
  rw [List.mem_singleton.1 hc]; exact ho

theorem OneEach.split {ok : Nat → Prop} {ps : List Piece} {x y : List Nat} (h : OneEach ok ps)
    (e : outs ps = x ++ y) : ∃ p1 p2, ps = p1 ++ p2 ∧ outs p1 = x ∧ p1.length = x.length := by
  induction x generalizing ps with
  | nil => exact ⟨[], ps, rfl, rfl, rfl⟩
  | cons c x ih =>
    rcases ps with _ | ⟨p, ps⟩
    · cases e
    · obtain ⟨d, hd, _⟩ := h p (by simp)
      rw [outs_cons, hd] at e
      injection e with e1 e2
      obtain ⟨p1, p2, h1, h2, h3⟩ := ih (fun q hq => h q (by simp [hq])) e2
      exact ⟨p :: p1, p2, by rw [h1]; rfl, by rw [outs_cons, hd, h2, e1]; rfl, by simp [h3]⟩

theorem pivot_cut {enc : Nat → List Nat} {evc : Nat → List Event} {cs x y left : List Nat} {d : List Piece} {n : Nat}
    (hxy : cs = x ++ y) (hx : x.map (fun c => (⟨enc c, 1, evc c⟩ : Piece)) = d) (hn : n = (outs d).length)
    (hl : left = cs.drop (advs d)) : n = (x.flatMap enc).length ∧ cs.length - left.length = x.length := by
  subst hx
  rw [outs_map] at hn
  have : advs (x.map fun c => (⟨enc c, 1, evc c⟩ : Piece)) = x.length := by
    clear hl hxy hn
    induction x with
    | nil => rfl
    | cons a x ih => simp [advs] at ih ⊢; omega
  rw [this] at hl
  exact ⟨hn, by rw [hl, hxy]; simp⟩

theorem Lawful.bad' (L : Lawful D Rep) {s : σ} {t x y : List Nat} (h : D.good s = false) (r : Rep s (t ++ x))
    (hp : x <+: y) : Rep s (t ++ y) := by
  obtain ⟨z, rfl⟩ := hp
  rw [← List.append_assoc]; exact L.bad _ _ _ r h

theorem decodeEncodeLoop_spec (L : Lawful D Rep) {ok : Nat → Prop} {enc : Nat → List Nat} {evc : Nat → List Event}
    (hc : CharWise fromU32 ok enc evc) {why : Reason} {rest : List Nat} {ev : List Event} (fuel : Nat) :
    ∀ (s : σ) (t src : List Nat) (ps : List Piece), Scripted toU32 src ps why rest ev → OneEach ok ps → Rep s t →
      ps.length < fuel →
      ∃ s' q, decodeEncodeLoop D toU32 fromU32 fuel s src = some (s', q) ∧ Rep s' (t ++ (outs ps).flatMap enc) ∧
        After τ D s s' ((outs ps).flatMap enc).length ∧
        ((q.why = why ∧ q.stale = rest ∧ q.u32dist = 0 ∧ q.count = ((outs ps).flatMap enc).length) ∨
         (D.good s' = false ∧ q.why = .insufficient ∧ ∃ done mid todo, ps = done ++ mid ++ todo ∧
            q.u32dist = mid.length ∧ q.count = ((outs (done ++ mid)).flatMap enc).length ∧
            Scripted toU32 q.stale (mid ++ todo) why rest ev)) := by
  induction fuel with
  | zero => intro s t src ps _ _ _ h; omega
  | succ fuel ih =>
    intro s t src ps hs ho hr hf
    unfold decodeEncodeLoop
    rcases hs.call 16 with ⟨e, hl⟩ | ⟨done, p, todo, rest', e0, e1, hl, hl2, ea, hs'⟩
    · rw [e]
      dsimp only
      have hsc := hc (outs ps) ho.ok
      rcases encodePivot_spec L ((outs ps).length + 2) s t (outs ps) _ hsc hr (by simp) with
        ⟨s', evl, e3, r3, g3⟩ | ⟨s', n, left, evl, d2, t2, e3, b1, b2, b3, b4, b5, b6⟩
      · rw [e3]
        dsimp only
        rw [if_neg hs.why_ne]
        rw [outs_map] at r3 g3 ⊢
        exact ⟨s', _, rfl, r3, g3, .inl ⟨rfl, rfl, rfl, rfl⟩⟩
      · rw [e3]
        dsimp only
        rw [outs_map] at b2
        obtain ⟨x, y, hxy, hx, hy⟩ := List.map_eq_append_iff.1 b3
        obtain ⟨hn, hu⟩ := pivot_cut hxy hx b4 b5
        obtain ⟨p1, p2, e4, e5, e6⟩ := ho.split hxy
        refine ⟨s', _, rfl, b2, (by rw [outs_map] at b6; exact b6), .inr ⟨b1, rfl, [], p1, p2, by simpa using e4, ?_, ?_,
          by rw [e4] at hs; exact hs⟩⟩
        · rw [hu]; exact e6.symm
        · rw [hn, List.nil_append, e5]
    · rw [e1]
      dsimp only
      have ho1 : OneEach ok done := fun q hq => ho q (by rw [e0]; simp [hq])
      have ho2 : OneEach ok (p :: todo) := fun q hq => ho q (by rw [e0]; exact List.mem_append_right _ hq)
      have hsc := hc (outs done) ho1.ok
      have hd16 : done.length = 16 := by
        obtain ⟨c, hc, _⟩ := ho p (by rw [e0]; simp)
        rw [hc] at hl2; simp at hl2
        have := ho1.length
        omega
      rcases encodePivot_spec L ((outs done).length + 2) s t (outs done) _ hsc hr (by simp) with
        ⟨s1, evl, e3, r3, g3⟩ | ⟨s', n, left, evl, d2, t2, e3, b1, b2, b3, b4, b5, b6⟩
      · rw [e3]
        dsimp only
        rw [if_pos rfl]
        rw [outs_map] at r3 g3 ⊢
        obtain ⟨s', q, e6, r6, g6, h6⟩ := ih s1 (t ++ (outs done).flatMap enc) rest' (p :: todo) hs' ho2 r3
          (by rw [e0] at hf; simp at hf ⊢; omega)
        rw [e6]
        dsimp only
        refine ⟨s', _, rfl, ?_, g3.trans g6 (by rw [e0, outs_append, List.flatMap_append, List.length_append]), ?_⟩
        · rw [e0, outs_append, List.flatMap_append, ← List.append_assoc]; exact r6
        · rcases h6 with ⟨a, b, c, d⟩ | ⟨a, b, d2, m, t2, c, d, f, g⟩
          · refine .inl ⟨a, b, c, ?_⟩
            rw [d, e0, outs_append, List.flatMap_append, List.length_append]
          · refine .inr ⟨a, b, done ++ d2, m, t2, by rw [e0, c]; simp, d, ?_, g⟩
            dsimp only
            rw [f, List.append_assoc, outs_append done, List.flatMap_append, List.length_append]
      · rw [e3]
        dsimp only
        obtain ⟨x, y, hxy, hx, hy⟩ := List.map_eq_append_iff.1 b3
        obtain ⟨hn, hu⟩ := pivot_cut hxy hx b4 b5
        obtain ⟨p1, p2, e4, e5, e6⟩ := ho1.split hxy
        refine ⟨s', _, rfl, Charset.Lawful.bad' L b1 b2 (by rw [outs_map, e0, outs_append, List.flatMap_append]; exact List.prefix_append _ _),
          b6.more b1 (by rw [outs_map, e0, outs_append, List.flatMap_append, List.length_append]; omega), .inr ⟨b1, rfl, [], p1, p2 ++ p :: todo,
          by rw [e0, e4]; simp, ?_, ?_, by rw [e0, e4] at hs; simpa using hs⟩⟩
        · rw [hu]; exact e6.symm
        · rw [hn, List.nil_append, e5]

/-- `decode_encode(to_u32, from_u32, src, src_end, dst, …)`: the encodings of all the code points read are printed. -/
theorem decodeEncodeTo_spec (L : Lawful D Rep) {ok : Nat → Prop} {enc : Nat → List Nat} {evc : Nat → List Event}
    (hc : CharWise fromU32 ok enc evc) {why : Reason} {src rest : List Nat} {ev : List Event} {ps : List Piece}
    (h : Scripted toU32 src ps why rest ev) (ho : OneEach ok ps) (s : σ) (t : List Nat) (hr : Rep s t) :
    ∃ s' q, decodeEncodeTo D toU32 fromU32 s src = some (s', q) ∧ Rep s' (t ++ (outs ps).flatMap enc) ∧
      After τ D s s' ((outs ps).flatMap enc).length ∧
      ((q.why = why ∧ q.stale = rest ∧ q.u32dist = 0 ∧ q.count = ((outs ps).flatMap enc).length) ∨
       (D.good s' = false ∧ q.why = .insufficient ∧ ∃ done mid todo, ps = done ++ mid ++ todo ∧
          q.u32dist = mid.length ∧ q.count = ((outs (done ++ mid)).flatMap enc).length ∧
          Scripted toU32 q.stale (mid ++ todo) why rest ev)) := by
  unfold decodeEncodeTo
  by_cases hg : D.good s = true
  · rw [if_neg (by simp [hg])]
    exact decodeEncodeLoop_spec L hc (src.length + 1) s t src ps h ho hr (by have := h.length_le; omega)
  · rw [if_pos (by simpa using hg)]
    exact ⟨s, _, rfl, L.bad _ _ _ hr (by simpa using hg), .of_bad (by simpa using hg) id,
      .inr ⟨by simpa using hg, rfl, [], [], ps, rfl, rfl, rfl, h⟩⟩

/-- `decode_encode` to a pointer range: everything if there is room, otherwise as many whole characters as fit. -/
theorem decodeEncodePtr_spec {ok : Nat → Prop} {enc : Nat → List Nat} {evc : Nat → List Event}
    (hc : CharWise fromU32 ok enc evc) {why : Reason} {rest : List Nat} {ev : List Event} (fuel : Nat) :
    ∀ (room : Nat) (src : List Nat) (ps : List Piece), Scripted toU32 src ps why rest ev → OneEach ok ps →
      ps.length < fuel →
      ∃ x, decodeEncodePtr toU32 fromU32 fuel room src = some x ∧
        ((((outs ps).flatMap enc).length ≤ room ∧ x.stale = rest ∧ x.out = (outs ps).flatMap enc ∧ x.u32dist = 0 ∧
          x.why = why) ∨
         (∃ done mid c todo, ps = done ++ mid ++ c :: todo ∧ x.out = (outs (done ++ mid)).flatMap enc ∧
          x.u32dist = mid.length ∧ x.why = .insufficient ∧ x.out.length ≤ room ∧
          room < ((outs (done ++ mid ++ [c])).flatMap enc).length ∧
          Scripted toU32 x.stale (mid ++ c :: todo) why rest ev)) := by
  induction fuel with
  | zero => intro room src ps _ _ h; omega
  | succ fuel ih =>
    intro room src ps hs ho hf
    unfold decodeEncodePtr
    rcases hs.call 16 with ⟨e, hl⟩ | ⟨done, p, todo, rest', e0, e1, hl, hl2, ea, hs'⟩
    · rw [e]
      dsimp only
      have hsc := hc (outs ps) ho.ok
      rcases hsc.call room with ⟨e3, hr⟩ | ⟨d2, c, t2, left, b3, e3, hr, hr2, b5, _⟩
      · rw [e3]
        dsimp only
        rw [if_pos rfl, if_neg hs.why_ne]
        rw [outs_map] at hr ⊢
        exact ⟨_, rfl, .inl ⟨hr, rfl, rfl, rfl, rfl⟩⟩
      · rw [e3]
        dsimp only
        rw [if_neg (by simp)]
        obtain ⟨x, y, hxy, hx, hy⟩ := List.map_eq_append_iff.1 b3
        obtain ⟨hn, hu⟩ := pivot_cut hxy hx rfl b5
        obtain ⟨p1, p2, e4, e5, e6⟩ := ho.split hxy
        obtain ⟨d, y', rfl, rfl, rfl⟩ := List.map_eq_cons_iff.1 hy
        have e7 : outs p2 = d :: y' := by
          rw [e4, outs_append, e5] at hxy; exact List.append_cancel_left hxy
        have ho2 : OneEach ok p2 := fun q hq => ho q (by rw [e4]; simp [hq])
        obtain ⟨p3, p4, e8, e9, e10⟩ := ho2.split (x := [d]) e7
        obtain ⟨q, rfl⟩ := List.length_eq_one_iff.1 e10
        refine ⟨_, rfl, .inr ⟨[], p1, q, p4, by rw [e4, e8]; simp, ?_, by rw [hu, e6], rfl, hr, ?_,
          by rw [e4, e8] at hs; simpa using hs⟩⟩
        · rw [List.nil_append, e5, ← hx, outs_map]
        · rw [hn] at hr2
          rw [List.nil_append, outs_append, e5, e9, List.flatMap_append, List.length_append]
          simpa using hr2
    · rw [e1]
      dsimp only
      have ho1 : OneEach ok done := fun q hq => ho q (by rw [e0]; simp [hq])
      have ho2 : OneEach ok (p :: todo) := fun q hq => ho q (by rw [e0]; exact List.mem_append_right _ hq)
      have hsc := hc (outs done) ho1.ok
      have hd16 : done.length = 16 := by
        obtain ⟨c, hc, _⟩ := ho p (by rw [e0]; simp)
        rw [hc] at hl2; simp at hl2
        have := ho1.length
        omega
      rcases hsc.call room with ⟨e3, hr⟩ | ⟨d2, c, t2, left, b3, e3, hr, hr2, b5, _⟩
      · rw [e3]
        dsimp only
        rw [if_pos rfl, if_pos rfl]
        rw [outs_map] at hr ⊢
        obtain ⟨x, hx, h⟩ := ih (room - ((outs done).flatMap enc).length) rest' (p :: todo) hs' ho2
          (by rw [e0] at hf; simp at hf ⊢; omega)
        rw [hx]
        refine ⟨_, rfl, ?_⟩
        dsimp only
        rcases h with ⟨h1, h2, h3, h4, h5⟩ | ⟨d2, mid, c, t2, h1, h2, h3, h4, h5, h6, h7⟩
        · refine .inl ⟨?_, h2, ?_, h4, h5⟩
          · rw [e0, outs_append, List.flatMap_append, List.length_append]; omega
          · rw [h3, e0, outs_append, List.flatMap_append]
        · refine .inr ⟨done ++ d2, mid, c, t2, by rw [e0, h1]; simp, ?_, h3, h4, ?_, ?_, h7⟩
          · rw [h2, List.append_assoc, outs_append done, List.flatMap_append]
          · rw [List.length_append]; omega
          · rw [List.append_assoc, List.append_assoc, outs_append done, List.flatMap_append, List.length_append,
              ← List.append_assoc]; omega
      · rw [e3]
        dsimp only
        rw [if_neg (by simp)]
        obtain ⟨x, y, hxy, hx, hy⟩ := List.map_eq_append_iff.1 b3
        obtain ⟨hn, hu⟩ := pivot_cut hxy hx rfl b5
        obtain ⟨p1, p2, e4, e5, e6⟩ := ho1.split hxy
        obtain ⟨d, y', rfl, rfl, rfl⟩ := List.map_eq_cons_iff.1 hy
        have e7 : outs p2 = d :: y' := by
          rw [e4, outs_append, e5] at hxy; exact List.append_cancel_left hxy
        have ho3 : OneEach ok p2 := fun q hq => ho1 q (by rw [e4]; simp [hq])
        obtain ⟨p3, p4, e8, e9, e10⟩ := ho3.split (x := [d]) e7
        obtain ⟨q, rfl⟩ := List.length_eq_one_iff.1 e10
        refine ⟨_, rfl, .inr ⟨[], p1, q, p4 ++ p :: todo, by rw [e0, e4, e8]; simp, ?_, by rw [hu, e6], rfl, hr, ?_,
          by rw [e0, e4, e8] at hs; simpa using hs⟩⟩
        · rw [List.nil_append, e5, ← hx, outs_map]
        · rw [hn] at hr2
          rw [List.nil_append, outs_append, e5, e9, List.flatMap_append, List.length_append]
          simpa using hr2

/-- `size` computes sizes of whole characters, up to the limit. -/
def SizeWise (size : SizeFunc) (ok : Nat → Prop) (enc : Nat → List Nat) : Prop :=
  ∀ (limit : Nat) (cs : List Nat), (∀ c ∈ cs, ok c) → (cs.flatMap enc).length ≤ limit →
    size limit cs = some ⟨(cs.flatMap enc).length, [], .completed⟩

/-- `decode_encode_size` gives the length of what `decode_encode` writes. -/
theorem decodeEncodeSize_spec {ok : Nat → Prop} {enc : Nat → List Nat} {size : SizeFunc} (hc : SizeWise size ok enc)
    {pivot : Nat} (hp : 1 ≤ pivot) {why : Reason} {rest : List Nat} {ev : List Event} (fuel : Nat) :
    ∀ (limit : Nat) (src : List Nat) (ps : List Piece), Scripted toU32 src ps why rest ev → OneEach ok ps →
      ps.length < fuel → ((outs ps).flatMap enc).length ≤ limit →
      decodeEncodeSize pivot toU32 size fuel limit src = some ⟨((outs ps).flatMap enc).length, rest, 0, why, []⟩ := by
  induction fuel with
  | zero => intro limit src ps _ _ h; omega
  | succ fuel ih =>
    intro limit src ps hs ho hf hlim
    unfold decodeEncodeSize
    rcases hs.call pivot with ⟨e, hl⟩ | ⟨done, p, todo, rest', e0, e1, hl, hl2, ea, hs'⟩
    · rw [e]
      dsimp only
      rw [hc limit (outs ps) ho.ok hlim]
      dsimp only
      rw [if_pos rfl, if_neg hs.why_ne]
    · rw [e1]
      dsimp only
      have ho1 : OneEach ok done := fun q hq => ho q (by rw [e0]; simp [hq])
      have ho2 : OneEach ok (p :: todo) := fun q hq => ho q (by rw [e0]; exact List.mem_append_right _ hq)
      have hd : 1 ≤ done.length := by
        obtain ⟨c, hc, _⟩ := ho p (by rw [e0]; simp)
        rw [hc] at hl2; simp at hl2
        have := ho1.length
        omega
      rw [e0, outs_append, List.flatMap_append, List.length_append] at hlim ⊢
      rw [hc limit (outs done) ho1.ok (by omega)]
      dsimp only
      rw [if_pos rfl, if_pos rfl, ih _ rest' (p :: todo) hs' ho2 (by rw [e0] at hf; simp at hf ⊢; omega) (by omega)]

end Strf.Charset

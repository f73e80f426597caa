import Verif.Transcode.NotesLemmas
/-! # The calls of the error notifier, through destinations and pivot buffers -/
namespace Strf.Transcode
open Strf.Format (CsName)
open Strf.Utf (Reason)
open Strf.Charset (Func Event OnceOrTwice DERes DEPtr Res transcodeLoop transcodeTo encodePivot decodeEncodeLoop decodeEncodeTo)
open Strf.Dest (Dest Lawful)

variable {σ : Type} {D : Dest Nat σ} {Rep : σ → List Nat → Prop} {func toU32 fromU32 : Func}
  {R : List Nat → List Mark → Prop} {stop : Mark → Option Reason} {out : Mark → List Nat} {d : CsName}

/-- what was said so far, then the notice of `m` a second time -/
theorem said_again (d : CsName) {done X : List Mark} {m : Mark} {n : Nat} {l : List Event} (e : X = m :: X.tail)
    (h : OnceOrTwice (notes d (n - extent done - m.size) X.tail) l) :
    OnceOrTwice (notes d n (done ++ X)) (notes d n (done ++ [m]) ++ (note d (n - extent done) m ++ l)) := by
  rw [notes_append, notes_append, e, notes, List.append_assoc]
  refine OnceOrTwice.append (OnceOrTwice.refl _) ?_
  rw [show notes d (n - extent done) [m] = note d (n - extent done) m by simp [notes]]
  exact OnceOrTwice.double (note_length ..) h

theorem head_first {done todo ms r : List Mark} {m : Mark} (e0 : ms = done ++ todo) (e : ms = m :: r) :
    done ++ todo.take 1 = m :: (done ++ todo.take 1).tail := by
  rcases done with _ | ⟨a, done⟩
  · rcases todo with _ | ⟨b, todo⟩
    · rw [e0] at e; cases e
    · rw [e0] at e; injection e with e _; rw [e]; rfl
  · rw [e0] at e; injection e with e _; rw [e]; rfl

theorem Tells.loop (L : Lawful D Rep) (W : Tells func R stop out d) (HR : Reads R) (ho : ∀ m, (out m).length ≤ 64) (fuel : Nat) :
    ∀ (s : σ) (t src : List Nat) (ms : List Mark), R src ms → Rep s t →
      (ms.length + 1 < fuel ∨ (ms.length < fuel ∧ 64 ≤ D.space s)) →
      ∃ s' q done todo, transcodeLoop D func fuel s src = some (s', q) ∧ Rep s' (t ++ done.flatMap out) ∧
        ms = done ++ todo ∧ (∀ m ∈ done, stop m = none) ∧ q.count = (done.flatMap out).length ∧
        q.rest = src.drop (extent done) ∧
        Ends stop (fun _ => D.good s' = false) todo q.why ∧
        OnceOrTwice (notes d src.length (done ++ todo.take 1)) q.events ∧
        (64 ≤ D.space s → ∀ m r, ms = m :: r → ∃ l, q.events = note d src.length m ++ l ∧
          OnceOrTwice (notes d (src.length - m.size) (done ++ todo.take 1).tail) l) := by
  induction fuel with
  | zero => intro s t src ms _ _ h; omega
  | succ fuel ih =>
    intro s t src ms hR hr hf
    unfold transcodeLoop
    obtain ⟨done, todo, why, e0, hn, hl, e1, hE⟩ := W (D.space s) src ms hR
    rw [e1]
    obtain ⟨s1, ep, r1, sz1, g1⟩ := L.poke s t (done.flatMap out) hr hl
    dsimp only
    rw [ep]
    dsimp only
    by_cases hw : why = .insufficient
    · subst hw
      rw [if_neg (by simp)]
      rcases todo with _ | ⟨m, todo⟩
      · cases hE
      rcases hE with ⟨_, h, _⟩ | ⟨hm, _, hfull⟩
      · exact absurd rfl h
      have h64 := ho m
      obtain ⟨r2, sp2, g2⟩ := L.recycle s1 _ r1 (by omega)
      have hdone : 64 ≤ D.space s → 1 ≤ done.length := by
        intro h; rcases done with _ | ⟨a, b⟩
        · simp at hfull; omega
        · simp
      have hlen : ms.length = done.length + todo.length + 1 := by rw [e0]; simp; omega
      by_cases hg : D.good (D.recycle s1) = true
      · rw [if_neg (by simp [hg])]
        obtain ⟨s', q, d2, t2, e3, b4, b0, b1, b2, b3, b5, b6, b7⟩ := ih (D.recycle s1) (t ++ done.flatMap out)
          (src.drop (extent done)) (m :: todo) (HR.drop _ _ _ (e0 ▸ hR)) r2
          (by simp only [List.length_cons]
              rcases hf with hf | ⟨hf, hf2⟩
              · right; constructor <;> omega
              · have := hdone hf2; right; constructor <;> omega)
        rw [e3]
        obtain ⟨l, hl1, hl2⟩ := b7 sp2 m todo rfl
        rw [List.length_drop] at hl1 hl2
        have hsa := said_again d (n := src.length) (done := done) (head_first b0 rfl) hl2
        rw [← List.append_assoc] at hsa
        refine ⟨s', _, done ++ d2, t2, rfl, ?_, by rw [e0, b0, List.append_assoc], ?_, ?_, ?_, b5, ?_, ?_⟩
        · rw [List.flatMap_append, ← List.append_assoc]; exact b4
        · intro x hx
          rcases List.mem_append.1 hx with h | h
          · exact hn x h
          · exact b1 x h
        · dsimp only; rw [b2, List.flatMap_append, List.length_append]
        · dsimp only; rw [b3, List.drop_drop, extent_append]
        · dsimp only; rw [hl1]; exact hsa
        · intro h m1 r1 e
          have := hdone h
          rcases done with _ | ⟨a, b⟩
          · simp at this
          rw [e0] at e
          injection e with e _
          subst e
          dsimp only
          refine ⟨notes d (src.length - a.size) (b ++ [m]) ++ q.events, ?_, ?_⟩
          · simp only [List.take_succ_cons, List.take_zero, List.cons_append]
            rw [notes, List.append_assoc]
          · rw [hl1]
            have hx : extent (a :: b) = a.size + extent b := by simp [extent]
            rw [hx, ← Nat.sub_sub] at hl2 ⊢
            have := said_again d (n := src.length - a.size) (done := b) (head_first b0 rfl) hl2
            rw [← List.append_assoc] at this
            exact this
      · rw [if_pos (by simpa using hg)]
        refine ⟨D.recycle s1, _, done, m :: todo, rfl, r2, e0, hn, rfl, rfl, .inr ⟨hm, rfl, by simpa using hg⟩, OnceOrTwice.refl _, ?_⟩
        intro _ m1 r1 e
        dsimp only
        rw [head_first e0 e, notes]
        exact ⟨_, rfl, OnceOrTwice.refl _⟩
    · rw [if_pos hw]
      refine ⟨s1, _, done, todo, rfl, r1, e0, hn, rfl, rfl, ?_, OnceOrTwice.refl _, ?_⟩
      · rcases todo with _ | ⟨m, todo⟩
        · exact hE
        · rcases hE with h | ⟨_, h, _⟩
          · exact .inl h
          · exact absurd h hw
      · intro _ m1 r1 e
        dsimp only
        rw [head_first e0 e, notes]
        exact ⟨_, rfl, OnceOrTwice.refl _⟩

/-! ## Through UTF-32 -/

variable {ok : Nat → Prop} {enc : Nat → List Nat} {stopU : Nat → Bool}

/-- what decode_encode says, if it ended at `todo`, of the ill-formed sequences and of the characters that are lacking -/
structure Said (d : CsName) (n : Nat) (before near todo : List Mark) (why : Reason) (events : List Event) : Prop where
  inv : ∃ ahead, ahead <+: todo ∧ near.length + ahead.length ≤ 17 ∧ (why = .invalid → ahead = todo.take 1) ∧
    OnceOrTwice (notes (.utf .utf32) n (before ++ near ++ ahead)) (invalids events) ∧
    ∀ m r, before ++ near ++ todo = m :: r → before ++ near ++ ahead = m :: (before ++ near ++ ahead).tail ∧
      ∃ l, invalids events = note (.utf .utf32) n m ++ l ∧
      OnceOrTwice (notes (.utf .utf32) (n - m.size) (before ++ near ++ ahead).tail) l
  uns : OnceOrTwice (lacking d ((before ++ near ++ todo.take 1).map Mark.char)) (unsupporteds events)

/-- a block of the pivot buffer, all of it encoded, then the rest -/
theorem Said.step {d : CsName} {src : List Nat} {d1 done near todo t1 : List Mark} {m : Mark} {why : Reason} {x : List Nat}
    {ev es : List Event} (hx : x = d1.map Mark.char) (hev : OnceOrTwice (lacking d x) ev) (hevi : invalids ev = [])
    (hevu : unsupporteds ev = ev) (hne : d1 ≠ [])
    (b0 : m :: t1 = done ++ near ++ todo) (b7 : Said d (src.length - extent d1) done near todo why es) :
    Said d src.length (d1 ++ done) near todo why (notes (.utf .utf32) src.length (d1 ++ [m]) ++ ev ++ es) := by
  obtain ⟨ahead, c1, c2, c3, c4, c5⟩ := b7.inv
  obtain ⟨hh, l, hl1, hl2⟩ := c5 m t1 b0.symm
  have hinv : invalids (notes (.utf .utf32) src.length (d1 ++ [m]) ++ ev ++ es) =
      notes (.utf .utf32) src.length (d1 ++ [m]) ++ (note (.utf .utf32) (src.length - extent d1) m ++ l) := by
    rw [invalids_append, invalids_append, hevi, notes_utf_invalids, hl1, List.append_nil]
  constructor
  · refine ⟨ahead, c1, c2, c3, ?_, ?_⟩
    · rw [hinv, List.append_assoc, List.append_assoc, ← List.append_assoc done]
      exact said_again _ hh hl2
    · intro p r e
      rcases d1 with _ | ⟨q, qs⟩
      · exact absurd rfl hne
      injection e with e _
      subst e
      refine ⟨rfl, notes (.utf .utf32) (src.length - q.size) (qs ++ [m]) ++ (note (.utf .utf32) (src.length - extent (q :: qs)) m ++ l), ?_, ?_⟩
      · rw [hinv, List.cons_append, notes, List.append_assoc]
      · have hx : extent (q :: qs) = q.size + extent qs := by simp [extent]
        rw [hx, ← Nat.sub_sub] at hl2 ⊢
        have := said_again _ (n := src.length - q.size) (done := qs) hh hl2
        simpa using this
  · rw [unsupporteds_append, unsupporteds_append, hevu, notes_utf_unsupporteds, List.nil_append, List.append_assoc, List.append_assoc,
      List.map_append, lacking_append, ← hx, ← List.append_assoc done]
    exact OnceOrTwice.append hev b7.uns

/-- the last block, all of it encoded -/
theorem Said.last {d : CsName} {n : Nat} {d1 t1 : List Mark} {why : Reason} {x : List Nat} {ev : List Event}
    (hx : x = d1.map Mark.char) (hev : OnceOrTwice (lacking d x) ev) (hevi : invalids ev = [])
    (hevu : unsupporteds ev = ev) (hl : d1.length ≤ 16) (hb : ∀ m ∈ t1.take 1, supported d m.char = true) :
    Said d n d1 [] t1 why (notes (.utf .utf32) n (d1 ++ t1.take 1) ++ ev) := by
  constructor
  · refine ⟨t1.take 1, List.take_prefix _ _, by simp only [List.length_nil, List.length_take]; omega, fun _ => rfl, ?_, ?_⟩
    · rw [invalids_append, hevi, notes_utf_invalids, List.append_nil, List.append_nil]
      exact OnceOrTwice.refl _
    · intro m r e
      rw [List.append_nil] at e ⊢
      have h := head_first (ms := m :: r) e.symm rfl
      refine ⟨h, notes (.utf .utf32) (n - m.size) (d1 ++ t1.take 1).tail, ?_, OnceOrTwice.refl _⟩
      rw [invalids_append, hevi, notes_utf_invalids, List.append_nil, ← notes, ← h]
  · rw [unsupporteds_append, hevu, notes_utf_unsupporteds, List.nil_append, List.append_nil, List.map_append, lacking_append, ← hx]
    have : lacking d ((t1.take 1).map Mark.char) = [] := by
      rcases t1 with _ | ⟨m, t1⟩
      · rfl
      · have := hb m (by simp)
        show (if supported d m.char then [] else [_]) ++ [] = []
        rw [this]; rfl
    rw [this, List.append_nil]
    exact hev

/-- the last block, not all of it encoded -/
theorem Said.cut {d : CsName} {n : Nat} {a b t1 : List Mark} {m : Mark} {why : Reason} {x : List Nat} {ev : List Event}
    (hx : x = a.map Mark.char) (hev : OnceOrTwice (lacking d (x ++ [m.char])) ev) (hevi : invalids ev = [])
    (hevu : unsupporteds ev = ev) (hl : (a ++ m :: b).length ≤ 16) (hw : why ≠ .invalid) :
    Said d n [] a (m :: b ++ t1) why (notes (.utf .utf32) n (a ++ m :: b ++ t1.take 1) ++ ev) := by
  constructor
  · refine ⟨m :: b ++ t1.take 1, ?_, ?_, fun h => absurd h hw, ?_, ?_⟩
    · exact List.prefix_append_right_inj _ |>.2 (List.take_prefix _ _)
    · simp at hl ⊢; omega
    · rw [invalids_append, hevi, notes_utf_invalids, List.append_nil, List.nil_append, ← List.append_assoc]
      exact OnceOrTwice.refl _
    · intro q r e
      rw [List.nil_append] at e ⊢
      have h : a ++ (m :: b ++ t1.take 1) = q :: (a ++ (m :: b ++ t1.take 1)).tail := by
        rcases a with _ | ⟨a0, a⟩
        · injection e with e _; rw [e]; rfl
        · injection e with e _; rw [e]; rfl
      refine ⟨h, notes (.utf .utf32) (n - q.size) (a ++ (m :: b ++ t1.take 1)).tail, ?_, OnceOrTwice.refl _⟩
      rw [invalids_append, hevi, notes_utf_invalids, List.append_nil, ← notes, ← h, List.append_assoc]
  · rw [unsupporteds_append, hevu, notes_utf_unsupporteds, List.nil_append, List.nil_append, List.map_append, ← hx]
    exact hev

theorem dePtr_said (WA : Tells toU32 R stop (fun m => [m.char]) (.utf .utf32)) (HR : Reads R)
    (WB : EncodesTelling fromU32 ok enc stopU d) (hok : ∀ src ms, R src ms → ∀ m ∈ ms, ok m.char)
    (hbad : ∀ src ms, R src ms → ∀ m ∈ ms, stop m ≠ none → supported d m.char = true) (fuel : Nat) :
    ∀ (room : Nat) (src : List Nat) (ms : List Mark), R src ms → ms.length < fuel →
      ∃ x, dePtr 16 toU32 fromU32 fuel room src = some x ∧
        ∃ done near todo, ms = done ++ near ++ todo ∧ (∀ m ∈ done ++ near, stop m = none ∧ stopU m.char = false) ∧
          x.out = (done ++ near).flatMap (fun m => enc m.char) ∧ x.out.length ≤ room ∧ x.stale = src.drop (extent done) ∧
          x.u32dist = near.length ∧
          PivotEnds stop stopU (fun m => room < x.out.length + (enc m.char).length) near todo x.why ∧
          Said d src.length done near todo x.why x.events := by
  induction fuel with
  | zero => intro room src ms _ h; omega
  | succ fuel ih =>
    intro room src ms hR hf
    obtain ⟨d1, t1, w1, e0, hn, hl, e1, hE⟩ := WA 16 src ms hR
    rw [flatMap_char] at hl e1 hE
    simp only [List.length_map, List.length_singleton] at hl hE
    have hok1 : ∀ c ∈ d1.map Mark.char, ok c := by
      intro c hc
      obtain ⟨m, hm, rfl⟩ := List.mem_map.1 hc
      exact hok src ms hR m (by rw [e0]; simp [hm])
    obtain ⟨x, y, w2, e2, hx, hlr, e3, hy⟩ := WB room _ hok1
    obtain ⟨a, b, e4, e5, e6⟩ := char_split e2
    have hxf : x.flatMap enc = a.flatMap (fun m => enc m.char) := by rw [← e5, List.flatMap_map]
    unfold dePtr
    rw [e1]
    dsimp only
    rw [e3]
    dsimp only
    have ha : ∀ m ∈ a, stop m = none ∧ stopU m.char = false := fun m hm =>
      ⟨hn m (by rw [e4]; simp [hm]), hx _ (by rw [← e5]; exact List.mem_map_of_mem hm)⟩
    rcases y with _ | ⟨c, y⟩
    · dsimp only at hy
      subst hy
      have hb : b = [] := by simpa using e6
      subst hb
      rw [List.append_nil] at e4
      subst e4
      have hx' : x = d1.map Mark.char := e5.symm
      rw [if_pos rfl]
      simp only [List.take_nil, List.append_nil]
      by_cases hw : w1 = .insufficient
      · subst hw
        rw [if_pos rfl]
        rcases t1 with _ | ⟨m, t1⟩
        · cases hE
        rcases hE with ⟨_, h, _⟩ | ⟨hm, _, hfull⟩
        · exact absurd rfl h
        obtain ⟨z, ez, done, near, todo, b0, b1, b2, b3, b4, b5, b6, b7⟩ := ih (room - (x.flatMap enc).length)
          (src.drop (extent d1)) (m :: t1) (HR.drop _ _ _ (e0 ▸ hR)) (by rw [e0] at hf; simp at hf ⊢; omega)
        rw [ez]
        rw [List.length_drop] at b7
        refine ⟨_, rfl, d1 ++ done, near, todo, by rw [e0, b0]; simp, ?_, ?_, ?_, ?_, b5, ?_, ?_⟩
        · intro p hp
          rw [List.append_assoc] at hp
          rcases List.mem_append.1 hp with h | h
          · exact ha p h
          · exact b1 p h
        · dsimp only; rw [b2, hxf]; simp
        · dsimp only; rw [List.length_append]; omega
        · dsimp only; rw [b4, List.drop_drop, extent_append]
        · dsimp only
          rcases todo with _ | ⟨p, todo⟩
          · exact b6
          · rcases b6 with h | h | ⟨h1, h2, h3, h4⟩
            · exact .inl h
            · exact .inr (.inl h)
            · exact .inr (.inr ⟨h1, h2, h3, by rw [List.length_append]; omega⟩)
        · exact Said.step hx' (OnceOrTwice.refl _) (lacking_invalids d x) (lacking_unsupporteds d x)
            (by rintro rfl; simp at hfull) b0 b7
      · rw [if_neg hw]
        refine ⟨_, rfl, d1, [], t1, by rw [e0, List.append_nil], by simpa using ha, by simpa using hxf, hlr, rfl, rfl, ?_, ?_⟩
        · rcases t1 with _ | ⟨m, t1⟩
          · exact ⟨rfl, hE⟩
          · rcases hE with ⟨h1, h2, h3⟩ | ⟨_, h, _⟩
            · exact .inl ⟨rfl, h1, h2, h3⟩
            · exact absurd h hw
        · refine Said.last hx' (OnceOrTwice.refl _) (lacking_invalids d x) (lacking_unsupporteds d x) hl ?_
          intro m hm
          rcases t1 with _ | ⟨m', t1⟩
          · cases hm
          · have : m = m' := by simpa using hm
            subst this
            rcases hE with ⟨h1, h2, h3⟩ | ⟨_, h, _⟩
            · exact hbad src ms hR m (by rw [e0]; simp) (by rw [h1]; simp)
            · exact absurd h hw
    · dsimp only at hy
      have hw : w2 ≠ .completed := by
        rcases hy with ⟨_, h⟩ | ⟨_, h, _⟩ <;> rw [h] <;> simp
      have hwi : w2 ≠ .invalid := by
        rcases hy with ⟨_, h⟩ | ⟨_, h, _⟩ <;> rw [h] <;> simp
      rw [if_neg hw]
      rcases b with _ | ⟨m, b⟩
      · cases e6
      simp only [List.map_cons, List.cons.injEq] at e6
      obtain ⟨rfl, rfl⟩ := e6
      have hu : (d1.map Mark.char).length - (m.char :: b.map Mark.char).length = a.length := by
        rw [e4]; simp
      have hm : stop m = none := hn m (by rw [e4]; simp)
      refine ⟨_, rfl, [], a, m :: b ++ t1, by rw [e0, e4]; simp, by simpa using ha, by simpa using hxf, hlr, by simp [extent], hu, ?_, ?_⟩
      · rcases hy with ⟨h1, h2⟩ | ⟨h1, h2, h3⟩
        · exact .inr (.inl ⟨hm, h1, h2⟩)
        · exact .inr (.inr ⟨hm, h1, h2, h3⟩)
      · dsimp only
        rw [e4]
        exact Said.cut e5.symm (OnceOrTwice.refl _) (lacking_invalids d _) (lacking_unsupporteds d _) (e4 ▸ hl) hwi

/-! ### To a destination -/

theorem lack_length (d : CsName) (c : Nat) : (lacking d [c]).length ≤ 1 := by
  show ((if supported d c then [] else [_]) ++ [] : List Event).length ≤ 1
  split <;> simp

theorem encodes_said (L : Lawful D Rep) (WB : EncodesTelling fromU32 ok enc stopU d) (henc : ∀ c, (enc c).length ≤ 64) (fuel : Nat) :
    ∀ (s : σ) (t cs : List Nat), (∀ c ∈ cs, ok c) → Rep s t →
      (cs.length + 1 < fuel ∨ (cs.length < fuel ∧ 64 ≤ D.space s)) →
      ∃ x y s' ev, cs = x ++ y ∧ (∀ c ∈ x, stopU c = false) ∧ Rep s' (t ++ x.flatMap enc) ∧
        OnceOrTwice (lacking d (x ++ y.take 1)) ev ∧ invalids ev = [] ∧ unsupporteds ev = ev ∧
        (64 ≤ D.space s → ∀ c r, cs = c :: r → ∃ l, ev = lacking d [c] ++ l ∧
          OnceOrTwice (lacking d (x ++ y.take 1).tail) l) ∧
        match y with
        | [] => encodePivot D fromU32 fuel s cs = some (.next s' (x.flatMap enc).length ev)
        | c :: y' => (stopU c = true ∧ encodePivot D fromU32 fuel s cs = some (.ret s' (x.flatMap enc).length (c :: y') .unsupported ev)) ∨
            (stopU c = false ∧ D.good s' = false ∧
              encodePivot D fromU32 fuel s cs = some (.ret s' (x.flatMap enc).length (c :: y') .insufficient ev)) := by
  induction fuel with
  | zero => intro s t cs _ _ h; omega
  | succ fuel ih =>
    intro s t cs hok hr hf
    unfold encodePivot
    obtain ⟨x, y, w, e0, hx, hl, e1, hy⟩ := WB (D.space s) cs hok
    rw [e1]
    obtain ⟨s1, ep, r1, sz1, g1⟩ := L.poke s t (x.flatMap enc) hr hl
    dsimp only
    rw [ep]
    dsimp only
    have hfst : ∀ c r, cs = c :: r → x ++ y.take 1 = c :: (x ++ y.take 1).tail := by
      intro c r e
      rw [e0] at e
      rcases x with _ | ⟨a, x⟩
      · rcases y with _ | ⟨b, y⟩
        · cases e
        · injection e with e _; rw [e]; rfl
      · injection e with e _; rw [e]; rfl
    have hfst' : ∀ c r, cs = c :: r → ∃ l, lacking d (x ++ y.take 1) = lacking d [c] ++ l ∧
          OnceOrTwice (lacking d (x ++ y.take 1).tail) l := by
      intro c r e
      refine ⟨_, ?_, OnceOrTwice.refl _⟩
      rw [← lacking_append, List.singleton_append, ← hfst c r e]
    rcases y with _ | ⟨c, y⟩
    · dsimp only at hy
      subst hy
      rw [if_pos rfl]
      exact ⟨x, [], s1, _, e0, hx, r1, OnceOrTwice.refl _, lacking_invalids d _, lacking_unsupporteds d _, fun _ => hfst', rfl⟩
    · dsimp only at hy
      rcases hy with ⟨h1, rfl⟩ | ⟨h1, rfl, h3⟩
      · rw [if_neg (by simp), if_neg (by simp)]
        exact ⟨x, c :: y, s1, _, e0, hx, r1, OnceOrTwice.refl _, lacking_invalids d _, lacking_unsupporteds d _, fun _ => hfst', .inl ⟨h1, rfl⟩⟩
      · rw [if_neg (by simp), if_pos rfl]
        have h64 := henc c
        obtain ⟨r2, sp2, g2⟩ := L.recycle s1 _ r1 (by omega)
        have hdone : 64 ≤ D.space s → 1 ≤ x.length := by
          intro h; rcases x with _ | ⟨a, b⟩
          · simp at h3; omega
          · simp
        have hlen : cs.length = x.length + y.length + 1 := by rw [e0]; simp; omega
        by_cases hg : D.good (D.recycle s1) = true
        · rw [if_neg (by simp [hg])]
          obtain ⟨x2, y2, s', ev', b0, b1, b2, b3, b3i, b3u, b3h, b4⟩ := ih (D.recycle s1) (t ++ x.flatMap enc) (c :: y)
            (fun z hz => hok z (by rw [e0]; exact List.mem_append_right _ hz)) r2
            (by simp only [List.length_cons]
                rcases hf with hf | ⟨hf, hf2⟩
                · right; constructor <;> omega
                · have := hdone hf2; right; constructor <;> omega)
          obtain ⟨l, hl1, hl2⟩ := b3h sp2 c y rfl
          have hc2 : x2 ++ y2.take 1 = c :: (x2 ++ y2.take 1).tail := by
            rcases x2 with _ | ⟨a, x2⟩
            · rcases y2 with _ | ⟨b, y2⟩
              · cases b0
              · injection b0 with e _; rw [e]; rfl
            · injection b0 with e _; rw [e]; rfl
          have again : ∀ z, OnceOrTwice (lacking d (z ++ (x2 ++ y2.take 1))) (lacking d (z ++ [c]) ++ ev') := by
            intro z
            rw [hc2, hl1, lacking_append, lacking_append, List.append_assoc, ← List.singleton_append, lacking_append]
            exact OnceOrTwice.append (OnceOrTwice.refl _) (OnceOrTwice.double (lack_length d c) hl2)
          refine ⟨x ++ x2, y2, s', lacking d (x ++ [c]) ++ ev', by rw [e0, b0, List.append_assoc], ?_, ?_, ?_, ?_, ?_, ?_, ?_⟩
          · intro z hz
            rcases List.mem_append.1 hz with h | h
            · exact hx z h
            · exact b1 z h
          · rw [List.flatMap_append, ← List.append_assoc]; exact b2
          · rw [List.append_assoc]; exact again x
          · rw [invalids_append, lacking_invalids, b3i]; rfl
          · rw [unsupporteds_append, lacking_unsupporteds, b3u]
          · intro h c1 r1 e
            have := hdone h
            rcases x with _ | ⟨a, b⟩
            · simp at this
            rw [e0] at e
            injection e with e _
            subst e
            refine ⟨lacking d (b ++ [c]) ++ ev', ?_, ?_⟩
            · rw [← List.append_assoc, ← lacking_append]; rfl
            · have := again b
              simpa using this
          · rcases y2 with _ | ⟨c2, y2⟩
            · dsimp only at b4 ⊢
              rw [b4]; simp
            · dsimp only at b4 ⊢
              rcases b4 with ⟨k1, k2⟩ | ⟨k1, k2, k3⟩
              · rw [k2]; exact .inl ⟨k1, by simp⟩
              · rw [k3]; exact .inr ⟨k1, k2, by simp⟩
        · rw [if_pos (by simpa using hg)]
          exact ⟨x, c :: y, D.recycle s1, _, e0, hx, r2, OnceOrTwice.refl _, lacking_invalids d _, lacking_unsupporteds d _, fun _ => hfst',
            .inr ⟨h1, by simpa using hg, rfl⟩⟩

theorem deLoop_said (L : Lawful D Rep) (WA : Tells toU32 R stop (fun m => [m.char]) (.utf .utf32)) (HR : Reads R)
    (WB : EncodesTelling fromU32 ok enc stopU d) (henc : ∀ c, (enc c).length ≤ 64) (hok : ∀ src ms, R src ms → ∀ m ∈ ms, ok m.char)
    (hbad : ∀ src ms, R src ms → ∀ m ∈ ms, stop m ≠ none → supported d m.char = true)
    (fuel : Nat) : ∀ (s : σ) (t src : List Nat) (ms : List Mark), R src ms → Rep s t → ms.length < fuel →
      ∃ s' q done near todo, decodeEncodeLoop D toU32 fromU32 fuel s src = some (s', q) ∧
        Rep s' (t ++ (done ++ near).flatMap fun m => enc m.char) ∧
        ms = done ++ near ++ todo ∧ (∀ m ∈ done ++ near, stop m = none ∧ stopU m.char = false) ∧
        q.count = ((done ++ near).flatMap fun m => enc m.char).length ∧ q.stale = src.drop (extent done) ∧
        q.u32dist = near.length ∧
        PivotEnds stop stopU (fun _ => D.good s' = false) near todo q.why ∧
        Said d src.length done near todo q.why q.events := by
  induction fuel with
  | zero => intro s t src ms _ _ h; omega
  | succ fuel ih =>
    intro s t src ms hR hr hf
    obtain ⟨d1, t1, w1, e0, hn, hl, e1, hE⟩ := WA 16 src ms hR
    rw [flatMap_char] at hl e1 hE
    simp only [List.length_map, List.length_singleton] at hl hE
    have hok1 : ∀ c ∈ d1.map Mark.char, ok c := by
      intro c hc
      obtain ⟨m, hm, rfl⟩ := List.mem_map.1 hc
      exact hok src ms hR m (by rw [e0]; simp [hm])
    obtain ⟨x, y, s1, ev2, e2, hx, r1, hv, hvi, hvu, -, hy⟩ := encodes_said L WB henc ((d1.map Mark.char).length + 2) s t _ hok1 hr (by omega)
    obtain ⟨a, b, e4, e5, e6⟩ := char_split e2
    have hxf : x.flatMap enc = a.flatMap (fun m => enc m.char) := by rw [← e5, List.flatMap_map]
    rw [hxf] at r1
    unfold decodeEncodeLoop
    rw [e1]
    dsimp only
    have ha : ∀ m ∈ a, stop m = none ∧ stopU m.char = false := fun m hm =>
      ⟨hn m (by rw [e4]; simp [hm]), hx _ (by rw [← e5]; exact List.mem_map_of_mem hm)⟩
    rcases y with _ | ⟨c, y⟩
    · dsimp only at hy
      rw [hy]
      dsimp only
      have hb : b = [] := by simpa using e6
      subst hb
      rw [List.append_nil] at e4
      subst e4
      simp only [List.take_nil, List.append_nil] at hv
      by_cases hw : w1 = .insufficient
      · subst hw
        rw [if_pos rfl]
        rcases t1 with _ | ⟨m, t1⟩
        · cases hE
        rcases hE with ⟨_, h, _⟩ | ⟨hm, _, hfull⟩
        · exact absurd rfl h
        obtain ⟨s', q, done, near, todo, ez, b5, b0, b1, b2, b3, b4, b6, b7⟩ := ih s1 (t ++ d1.flatMap fun m => enc m.char)
          (src.drop (extent d1)) (m :: t1) (HR.drop _ _ _ (e0 ▸ hR)) r1 (by rw [e0] at hf; simp at hf ⊢; omega)
        rw [ez]
        rw [List.length_drop] at b7
        refine ⟨s', _, d1 ++ done, near, todo, rfl, ?_, by rw [e0, b0]; simp, ?_, ?_, ?_, b4, b6, ?_⟩
        · rw [List.append_assoc, List.flatMap_append, ← List.append_assoc]; exact b5
        · intro p hp
          rw [List.append_assoc] at hp
          rcases List.mem_append.1 hp with h | h
          · exact ha p h
          · exact b1 p h
        · dsimp only; rw [b2, hxf]; simp only [List.flatMap_append, List.length_append]; omega
        · dsimp only; rw [b3, List.drop_drop, extent_append]
        · exact Said.step e5.symm hv hvi hvu (by rintro rfl; simp at hfull) b0 b7
      · rw [if_neg hw]
        refine ⟨s1, _, d1, [], t1, rfl, by simpa using r1, by rw [e0, List.append_nil], by simpa using ha, by rw [hxf, List.append_nil], rfl, rfl,
          ?_, ?_⟩
        · rcases t1 with _ | ⟨m, t1⟩
          · exact ⟨rfl, hE⟩
          · rcases hE with ⟨h1, h2, h3⟩ | ⟨_, h, _⟩
            · exact .inl ⟨rfl, h1, h2, h3⟩
            · exact absurd h hw
        · refine Said.last e5.symm hv hvi hvu hl ?_
          intro m hm
          rcases t1 with _ | ⟨m', t1⟩
          · cases hm
          · have : m = m' := by simpa using hm
            subst this
            rcases hE with ⟨h1, h2, h3⟩ | ⟨_, h, _⟩
            · exact hbad src ms hR m (by rw [e0]; simp) (by rw [h1]; simp)
            · exact absurd h hw
    · dsimp only at hy
      rcases b with _ | ⟨m, b⟩
      · cases e6
      simp only [List.map_cons, List.cons.injEq] at e6
      obtain ⟨rfl, rfl⟩ := e6
      have hu : (d1.map Mark.char).length - (m.char :: b.map Mark.char).length = a.length := by
        rw [e4]; simp
      have hm : stop m = none := hn m (by rw [e4]; simp)
      have hcut : ∀ w, w ≠ .invalid → Said d src.length [] a (m :: b ++ t1) w
          (notes (.utf .utf32) src.length (d1 ++ t1.take 1) ++ ev2) := by
        intro w hw
        have := Said.cut (n := src.length) (t1 := t1) (why := w) e5.symm hv hvi hvu (e4 ▸ hl) hw
        rw [e4]
        exact this
      rcases hy with ⟨h1, h2⟩ | ⟨h1, h3, h2⟩
      · rw [h2]
        exact ⟨s1, _, [], a, m :: b ++ t1, rfl, by simpa using r1, by rw [e0, e4]; simp, by simpa using ha, by simp [hxf], by simp [extent], hu,
          .inr (.inl ⟨hm, h1, rfl⟩), hcut _ (by simp)⟩
      · rw [h2]
        exact ⟨s1, _, [], a, m :: b ++ t1, rfl, by simpa using r1, by rw [e0, e4]; simp, by simpa using ha, by simp [hxf], by simp [extent], hu,
          .inr (.inr ⟨hm, h1, rfl, h3⟩), hcut _ (by simp)⟩

end Strf.Transcode

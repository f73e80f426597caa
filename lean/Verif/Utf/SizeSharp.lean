import Verif.Utf.Props
/-!
# C14, C17: exactly when the sizes are wrong
-/
namespace Strf.Utf

/-- less room does not matter if it was not used -/
theorem specRun_less {s d : Enc} {f : Flags} (src : List Nat) : ∀ {room : Nat} {r : TR},
    specRun s d f (room + 1) src = some r → r.out.length ≤ room → specRun s d f room src = some r := by
  induction hn : src.length using Nat.strongRecOn generalizing src with
  | _ n ih =>
    subst hn
    intro room r
    rcases src with _ | ⟨ch, t⟩
    · unfold specRun run; exact fun h _ => h
    · unfold specRun run
      generalize hk : dec s f.lax ch t = k
      by_cases c1 : (f.stop && k.item.isBad) = true
      · have e1 : ∀ m, specStep d f.stop m ch t k = .ret (ch :: t) .invalid (if k.item.isBad then [⟨(ch :: t).length, k.n⟩] else []) := by
          intro m; unfold specStep; dsimp only; rw [if_pos c1]
        rw [e1, e1]; exact fun h _ => h
      · by_cases c2 : room + 1 < (encode d k.item.char).length
        · have e1 : ∀ m, m ≤ room + 1 → specStep d f.stop m ch t k = .ret (ch :: t) .insufficient (if k.item.isBad then [⟨(ch :: t).length, k.n⟩] else []) := by
            intro m hm; unfold specStep; dsimp only; rw [if_neg c1, if_pos (by omega)]
          rw [e1 _ (by omega), e1 _ (by omega)]; exact fun h _ => h
        · have e1 : ∀ m, (encode d k.item.char).length ≤ m → specStep d f.stop m ch t k =
              .cont (encode d k.item.char) (t.drop (k.n - 1)) (if k.item.isBad then [⟨(ch :: t).length, k.n⟩] else []) := by
            intro m hm; unfold specStep; dsimp only; rw [if_neg c1, if_neg (by omega)]
          rw [e1 _ (by omega)]
          have c3 : (t.drop (k.n - 1)).length ≤ t.length := by rw [List.length_drop]; omega
          dsimp only
          rw [dif_pos c3]
          intro h hl
          rw [Option.map_eq_some_iff] at h
          obtain ⟨q, hq, rfl⟩ := h
          simp only [List.length_append] at hl
          rw [e1 _ (by omega)]
          dsimp only
          rw [dif_pos c3]
          have e : room + 1 - (encode d k.item.char).length = (room - (encode d k.item.char).length) + 1 := by omega
          rw [e] at hq
          have := ih _ (by simp only [List.length_cons]; omega) _ rfl hq (by omega)
          unfold specRun at this
          rw [this]
          rfl

/-- C14, UTF-8 to UTF-8 without the stop flag, exactly: transcode_size tells the size, the position and the reason of a transcode call with that much
room if and only if that call leaves room, or had none. -/
theorem transcode_size_8to8_iff (signed lax : Bool) (limit : Nat) (src : List Nat) (h : Units .utf8 src) :
    ∃ r, transcode .utf8 .utf8 ⟨lax, false⟩ limit src = some r ∧
      (transcodeSize signed .utf8 .utf8 ⟨lax, false⟩ limit src = some ⟨r.out.length, r.rest, r.why⟩ ↔ r.out.length < limit ∨ limit = 0) := by
  obtain ⟨r, e, _, _, _, _, _, h4, _⟩ := transcode_outcome .utf8 .utf8 ⟨lax, false⟩ limit src h
  refine ⟨r, e, ?_⟩
  rw [transcode_eq_spec _ _ _ _ _ h] at e
  rcases limit with _ | n
  · refine iff_of_true ?_ (.inr rfl)
    have key : ∀ size ch t, sizeStep8to8Cont ⟨lax, false⟩ 0 size ch t = .ret ⟨size, ch :: t, .insufficient⟩ := by
      intro size ch t
      unfold sizeStep8to8Cont
      simp only [ge_iff_le, Nat.zero_le, if_true]
      repeat' (first | rfl | split)
    show runSize (sizeStep8to8Cont ⟨lax, false⟩ 0) 0 src = _
    rcases src with _ | ⟨ch, t⟩
    · unfold specRun run at e
      cases e
      unfold runSize
      rfl
    · unfold specRun run at e
      unfold runSize
      rw [key]
      unfold specStep at e
      have := encode_pos .utf8 (dec .utf8 lax ch t).item.char
      dsimp only at e
      rw [if_neg (by simp), if_pos this] at e
      cases e
      rfl
  · rw [transcodeSize88_spec h rfl]
    constructor
    · intro g
      left
      rw [Option.map_eq_some_iff] at g
      obtain ⟨q, hq, g⟩ := g
      obtain ⟨q', e', _, _, _, _, _, h4', _⟩ := transcode_outcome .utf8 .utf8 ⟨lax, false⟩ n src h
      rw [transcode_eq_spec _ _ _ _ _ h, hq] at e'
      cases e'
      simp only [sizeOf, SR.mk.injEq] at g
      omega
    · intro g
      rw [specRun_less src e (by omega)]
      simp [sizeOf]

/-- UTF-32 to UTF-32 with the stop flag, signed units -/
theorem size3232 {lax : Bool} {limit : Nat} {b : Bool} (src : List Nat) : ∀ (size : Nat), size ≤ limit → (b = false → size + src.length ≤ limit) →
    (b = true → limit < size + src.length) → Units .utf32 src →
    ∃ r, specRun .utf32 .utf32 ⟨lax, true⟩ (limit - size) src = some r ∧
      (runSize (sizeStep32to32 true b (!lax) limit) size src = some (sizeOf size r) ↔
        ¬ ∃ pre u rest, src = pre ++ u :: rest ∧ (∀ v ∈ pre, Scalar lax v) ∧ size + pre.length ≤ limit ∧ 0x80000000 ≤ u) := by
  induction src with
  | nil =>
    intro size _ _ _ _
    refine ⟨⟨[], [], .completed, []⟩, by unfold specRun run; rfl, iff_of_true (by unfold runSize; rfl) ?_⟩
    rintro ⟨pre, u, rest, e, _⟩
    simp at e
  | cons ch t ih =>
    intro size hl hb hb' hu
    have hsc : Scalar lax ch ↔ ¬ (ch ≥ 0x110000 ∨ (lax = false ∧ isSurrogate ch = true)) := by
      have : isSurrogate ch = true ↔ IsSurr ch := by
        unfold isSurrogate IsSurr
        rw [Nat.shiftRight_eq_div_pow, beq_iff_eq]
        omega
      rw [this]
      unfold Scalar
      cases lax <;> simp <;> omega
    by_cases hs : Scalar lax ch
    · have hk : dec .utf32 lax ch t = ⟨.ch ch, 1⟩ := by
        show dec32 lax ch t = _
        unfold dec32
        rw [if_neg (hsc.mp hs)]
      have hrun : ∀ room, specRun .utf32 .utf32 ⟨lax, true⟩ room (ch :: t) =
          if room < 1 then some ⟨ch :: t, [], .insufficient, []⟩
          else (specRun .utf32 .utf32 ⟨lax, true⟩ (room - 1) t).map fun r => { r with out := [ch] ++ r.out, notes := [] ++ r.notes } := by
        intro room
        rw [specRun, run]
        have hst : specStep .utf32 true room ch t (dec .utf32 lax ch t) = if room < 1 then .ret (ch :: t) .insufficient [] else .cont [ch] t [] := by
          rw [hk]
          simp [specStep, Item.isBad, Item.char, encode]
        rw [hst]
        split_ifs with g
        · rfl
        · simp
      rw [hrun]
      have h1 : ¬ (tooBig true ch || (!lax && isSurrogate ch)) = true := by
        have h3 := hs.1
        have h2 := hsc.mp hs
        unfold tooBig
        cases lax <;> simp at h2 ⊢ <;> (first | omega | (refine ⟨?_, ?_⟩ <;> first | omega | exact h2.2))
      by_cases hlim : limit - size < 1
      · rw [if_pos hlim]
        refine ⟨_, rfl, iff_of_true ?_ ?_⟩
        · unfold runSize sizeStep32to32
          rw [if_neg h1]
          have hbt : b = true := by
            cases b with
            | true => rfl
            | false => have := hb rfl; simp only [List.length_cons] at this; omega
          rw [if_pos (by rw [hbt, Bool.true_and, decide_eq_true_eq]; omega)]
          rfl
        · rintro ⟨pre, u, rest, e, hp, hlen, hbig⟩
          rcases pre with _ | ⟨p, pre⟩
          · simp at e
            have := hs.1
            omega
          · simp only [List.length_cons] at hlen
            omega
      · rw [if_neg hlim]
        obtain ⟨r, hr, hiff⟩ := ih (size + 1) (by omega) (fun g => by have := hb g; simp only [List.length_cons] at this; omega)
          (fun g => by have := hb' g; simp only [List.length_cons] at this; omega) hu.tail
        have hsub : limit - (size + 1) = limit - size - 1 := by omega
        rw [hsub] at hr
        rw [hr]
        refine ⟨_, rfl, ?_⟩
        unfold runSize
        unfold sizeStep32to32
        rw [if_neg h1, if_neg (by simp; omega)]
        simp only [Nat.le_refl, dite_true]
        have heq : (sizeOf size { r with out := [ch] ++ r.out, notes := [] ++ r.notes } : SR) = sizeOf (size + 1) r := by
          simp only [sizeOf, List.length_append, List.length_cons, List.length_nil, SR.mk.injEq, and_true]
          omega
        show runSize (sizeStep32to32 true b (!lax) limit) (size + 1) t = _ ↔ _
        simp only [sizeOf, List.length_append, List.length_cons, List.length_nil] at hiff ⊢
        have hsz : size + (0 + 1 + r.out.length) = size + 1 + r.out.length := by omega
        rw [hsz]
        rw [hiff]
        refine not_congr ⟨?_, ?_⟩
        · rintro ⟨pre, u, rest, e, hp, hlen, hbig⟩
          exact ⟨ch :: pre, u, rest, by rw [e]; rfl, fun v hv => by rcases List.mem_cons.mp hv with rfl | hv; exact hs; exact hp v hv,
            by simp only [List.length_cons]; omega, hbig⟩
        · rintro ⟨pre, u, rest, e, hp, hlen, hbig⟩
          rcases pre with _ | ⟨p, pre⟩
          · simp at e
            have := hs.1
            omega
          · simp only [List.cons_append, List.cons.injEq] at e
            exact ⟨pre, u, rest, e.2, fun v hv => hp v (by simp [hv]), by simp only [List.length_cons] at hlen; omega, hbig⟩
    · have hk : dec .utf32 lax ch t = ⟨.bad 1, 1⟩ := by
        show dec32 lax ch t = _
        unfold dec32
        rw [if_pos (by by_contra g; exact hs (hsc.mpr g))]
      have hrun : specRun .utf32 .utf32 ⟨lax, true⟩ (limit - size) (ch :: t) = some ⟨ch :: t, [], .invalid, [⟨(ch :: t).length, 1⟩]⟩ := by
        rw [specRun, run]
        have hst : specStep .utf32 true (limit - size) ch t (dec .utf32 lax ch t) = .ret (ch :: t) .invalid [⟨(ch :: t).length, 1⟩] := by
          rw [hk]
          simp [specStep, Item.isBad]
        rw [hst]
      rw [hrun]
      refine ⟨_, rfl, ?_⟩
      by_cases hbig : 0x80000000 ≤ ch
      · refine iff_of_false ?_ (not_not.mpr ⟨[], ch, t, rfl, by simp, by simpa using hl, hbig⟩)
        have hns : isSurrogate ch = false := by
          unfold isSurrogate
          rw [Nat.shiftRight_eq_div_pow, beq_eq_false_iff_ne]
          have := hu ch (by simp)
          omega
        unfold runSize sizeStep32to32
        rw [if_neg (by simp [tooBig, hns]; omega)]
        by_cases hlim : size ≥ limit
        · cases b with
          | true =>
            rw [if_pos (by simpa using hlim)]
            simp [sizeOf]
          | false =>
            have := hb rfl
            simp only [List.length_cons] at this
            omega
        · rw [if_neg (by simp; omega)]
          simp only [Nat.le_refl, dite_true]
          -- the position can only advance
          have adv : ∀ (l : List Nat) (k : Nat) (q : SR), runSize (sizeStep32to32 true b (!lax) limit) k l = some q → q.rest.length ≤ l.length := by
            intro l
            induction l with
            | nil => intro k q g; unfold runSize at g; cases g; simp
            | cons a l ihl =>
              intro k q g
              unfold runSize sizeStep32to32 at g
              split_ifs at g
              · cases g; simp
              · cases g; simp
              · simp only [Nat.le_refl, dite_true] at g
                have := ihl _ _ g
                simp only [List.length_cons]; omega
          intro g
          have := adv t _ _ g
          simp [sizeOf] at this
      · refine iff_of_true ?_ ?_
        · unfold runSize sizeStep32to32
          rw [if_pos]
          · simp [sizeOf]
          · by_contra g
            apply hs
            rw [hsc]
            unfold tooBig at g
            cases lax <;> simp [hbig] at g ⊢ <;> omega
        · rintro ⟨pre, u, rest, e, hp, hlen, hb2⟩
          rcases pre with _ | ⟨p, pre⟩
          · simp at e
            omega
          · simp only [List.cons_append, List.cons.injEq] at e
            exact hs (by rw [e.1]; exact hp p (by simp))

/-- C14, UTF-32 to UTF-32 with the stop flag if the unit type is signed, exactly: transcode_size is right if and only if the first unit that is not a
character is not one with the high bit set, or comes after the limit. -/
theorem transcode_size_32to32_iff (lax : Bool) (limit : Nat) (src : List Nat) (h : Units .utf32 src) :
    ∃ r, transcode .utf32 .utf32 ⟨lax, true⟩ limit src = some r ∧
      (transcodeSize true .utf32 .utf32 ⟨lax, true⟩ limit src = some ⟨r.out.length, r.rest, r.why⟩ ↔
        ¬ ∃ pre u rest, src = pre ++ u :: rest ∧ (∀ v ∈ pre, Scalar lax v) ∧ pre.length ≤ limit ∧ 0x80000000 ≤ u) := by
  obtain ⟨r, hr, hi⟩ := size3232 (lax := lax) (limit := limit) (b := decide (¬ src.length ≤ limit)) src 0 (Nat.zero_le _)
    (fun g => by simp at g; omega) (fun g => by simp at g; omega) h
  refine ⟨r, by rw [transcode_eq_spec _ _ _ _ _ h]; exact hr, ?_⟩
  simp only [Nat.zero_add, sizeOf] at hi
  exact hi

/-- the bytes after the first are continuation bytes, the first is not -/
theorem encode8_shape (c : Nat) (h : c ≤ 0x10FFFF) : ∃ b cont, encode .utf8 c = b :: cont ∧ isCont b = false ∧ (∀ u ∈ cont, isCont u = true) ∧
    (cont = [] ↔ c < 0x80) := by
  have nc : ∀ b : Nat, b < 256 → (b < 0x80 ∨ 0xC0 ≤ b) → isCont b = false := by decide +kernel
  rw [encode]
  split_ifs with h1 h2 h3
  · exact ⟨c, [], rfl, nc c (by omega) (by omega), by simp, by simp [h1]⟩
  · exact ⟨_, _, rfl, nc _ (by omega) (by omega), by
      intro u hu; simp at hu; subst hu; exact isCont_tail _ (by omega), by simp [h1]⟩
  · exact ⟨_, _, rfl, nc _ (by omega) (by omega), by
      intro u hu; simp at hu; rcases hu with rfl | rfl <;> exact isCont_tail _ (by omega), by simp [h1]⟩
  · exact ⟨_, _, rfl, nc _ (by omega) (by omega), by
      intro u hu; simp at hu; rcases hu with rfl | rfl | rfl <;> exact isCont_tail _ (by omega), by simp [h1]⟩

theorem loop_conts {limit size : Nat} (cont rest : List Nat) (h : ∀ u ∈ cont, isCont u = true) (hl : size < limit) :
    usize8to32Loop limit size (cont ++ rest) = usize8to32Loop limit size rest := by
  induction cont with
  | nil => rfl
  | cons a l ih =>
    rw [List.cons_append, usize8to32Loop, if_neg (by omega), h a (by simp)]
    simpa using ih fun u hu => h u (by simp [hu])

theorem usize8to32_loop {lax : Bool} (limit : Nat) (cs : List Nat) (hc : ∀ c ∈ cs, Scalar lax c) : ∀ size, size ≤ limit →
    (usize8to32Loop limit size (cs.flatMap (encode .utf8)) =
      (if size + cs.length ≤ limit then ⟨size + cs.length, [], .completed⟩
        else ⟨limit, (cs.drop (limit - size)).flatMap (encode .utf8), .insufficient⟩) ↔
      ¬ ∃ c, size < limit ∧ cs[limit - 1 - size]? = some c ∧ 0x80 ≤ c) := by
  induction cs with
  | nil =>
    intro size hl
    simp [usize8to32Loop, hl]
  | cons c cs ih =>
    intro size hl
    obtain ⟨b, cont, e, hb, hcont, hnil⟩ := encode8_shape c (hc c (by simp)).1
    rw [List.flatMap_cons, e, List.cons_append, usize8to32Loop]
    by_cases hlim : size ≥ limit
    · have : size = limit := by omega
      subst this
      rw [if_pos (Nat.le_refl _), if_neg (by simp)]
      simp [e]
    · rw [if_neg hlim, hb]
      simp only [Bool.false_eq_true, if_false]
      by_cases hlast : size + 1 < limit
      · rw [loop_conts cont _ hcont hlast]
        have := ih (fun c hc' => hc c (by simp [hc'])) (size + 1) (by omega)
        have e1 : limit - size = (limit - (size + 1)) + 1 := by omega
        have e2 : limit - 1 - size = (limit - 1 - (size + 1)) + 1 := by omega
        rw [e1, e2, List.drop_succ_cons, List.getElem?_cons_succ, List.length_cons]
        have e3 : size + (cs.length + 1) = size + 1 + cs.length := by omega
        rw [e3, this]
        simp [hlast, show size < limit by omega]
      · have e1 : limit = size + 1 := by omega
        subst e1
        simp only [Nat.add_sub_cancel, Nat.sub_self, List.getElem?_cons_zero, Nat.add_sub_cancel_left, List.drop_succ_cons, List.drop_zero, List.length_cons,
          Option.some.injEq]
        by_cases hascii : c < 0x80
        · rw [hnil.mpr hascii, List.nil_append]
          refine iff_of_true ?_ ?_
          · rcases cs with _ | ⟨c2, cs⟩
            · simp [usize8to32Loop]
            · obtain ⟨b2, cont2, e2, _⟩ := encode8_shape c2 (hc c2 (by simp)).1
              rw [List.flatMap_cons, e2, List.cons_append, usize8to32Loop, if_pos (Nat.le_refl _), if_neg (by simp only [List.length_cons]; omega)]
          · rintro ⟨c', _, rfl, h⟩
            omega
        · obtain ⟨a, l, hl2⟩ : ∃ a l, cont = a :: l := by
            rcases hcl : cont with _ | ⟨a, l⟩
            · exact absurd (hnil.mp hcl) hascii
            · exact ⟨a, l, rfl⟩
          refine iff_of_false ?_ (not_not.mpr ⟨c, by omega, rfl, by omega⟩)
          rw [hl2, List.cons_append, usize8to32Loop, if_pos (Nat.le_refl _)]
          split_ifs with g
          · simp
          · intro g2
            simp only [SR.mk.injEq, true_and, and_true] at g2
            have := congrArg List.length g2
            simp only [List.length_cons, List.length_append] at this
            omega

/-- C17 for sizes, UTF-8 to UTF-32, exactly: unsafe_transcode_size is right if and only if the last character that the limit admits is in ASCII, or there is
none. -/
theorem unsafe_size_8to32_iff (f : Flags) (limit : Nat) (cs : List Nat) (hc : ∀ c ∈ cs, Scalar f.lax c) :
    ∃ r, transcode .utf8 .utf32 f limit (cs.flatMap (encode .utf8)) = some r ∧
      (unsafeTranscodeSize .utf8 .utf32 f limit (cs.flatMap (encode .utf8)) = some ⟨r.out.length, r.rest, r.why⟩ ↔
        ¬ ∃ c, 0 < limit ∧ cs[limit - 1]? = some c ∧ 0x80 ≤ c) := by
  have hw : WellFormed .utf8 f.lax (cs.flatMap (encode .utf8)) := ⟨cs, hc, rfl⟩
  have hi := parses_unique (parses_items _ hw.units) (parses_wf (lax := f.lax) (e := .utf8) (by simp) cs hc)
  obtain ⟨r, e, done, todo, h1, h2, h3, h4, h5, h6, h7⟩ := transcode_outcome .utf8 .utf32 f limit _ hw.units
  refine ⟨r, e, ?_⟩
  rw [hi] at h1
  have hlen : ∀ l : List Utf.Item, (render .utf32 l).length = l.length := by
    intro l
    induction l with
    | nil => rfl
    | cons a l ih => rw [render, List.flatMap_cons, List.length_append, List.length_cons]; rw [render] at ih; rw [ih]; simp [encode]; omega
  -- the result of transcode
  have hr : (⟨r.out.length, r.rest, r.why⟩ : SR) = if 0 + cs.length ≤ limit then ⟨0 + cs.length, [], .completed⟩
      else ⟨limit, (cs.drop (limit - 0)).flatMap (encode .utf8), .insufficient⟩ := by
    have hcs : cs.length = done.length + todo.length := by
      have := congrArg List.length h1
      simpa using this
    have hdone : done = (cs.take done.length).map Utf.Item.ch := by
      have := congrArg (List.take done.length) h1
      rw [List.take_left, ← List.map_take] at this
      exact this.symm
    have hrest : r.rest = (cs.drop done.length).flatMap (encode .utf8) := by
      rw [h3]
      have hx : extent .utf8 done = ((cs.take done.length).flatMap (encode .utf8)).length := by
        conv_lhs => rw [hdone]
        exact extent_map_ch .utf8 _
      rw [hx]
      conv_lhs => rw [← List.take_append_drop done.length cs, List.flatMap_append]
      rw [List.take_append_drop]
      exact List.drop_left
    rw [h2] at h4
    rw [hlen] at h4
    have hout : r.out.length = done.length := by rw [h2, hlen]
    rw [hout, hrest]
    cases hwhy : r.why with
    | completed =>
      rw [hwhy] at h7
      dsimp only at h7
      subst h7
      simp only [List.length_nil, Nat.add_zero] at hcs
      rw [if_pos (by omega), ← hcs]
      simp
    | insufficient =>
      rw [hwhy] at h7
      obtain ⟨i, todo', h8, _, h9⟩ := h7
      rw [hlen] at h9
      simp only [encode, List.length_cons, List.length_nil] at h9
      subst h8
      simp only [List.length_cons] at hcs
      rw [if_neg (by omega)]
      have : done.length = limit := by omega
      rw [this, Nat.sub_zero]
    | invalid =>
      rw [hwhy] at h7
      obtain ⟨_, n, todo', h8⟩ := h7
      have : Utf.Item.bad n ∈ cs.map Utf.Item.ch := by rw [h1, h8]; simp
      simp at this
    | unsupported => rw [hwhy] at h7; exact h7.elim
  rw [hr]
  have hloop := usize8to32_loop limit cs hc 0 (Nat.zero_le _)
  rw [Nat.sub_zero (limit - 1)] at hloop
  show usize8to32 limit _ = _ ↔ _
  unfold usize8to32
  by_cases hs : (cs.flatMap (encode .utf8)).length ≤ limit
  · rw [if_pos hs]
    have hn := countNonCont_eq (lax := f.lax) _ hw.units hw.allGood
    rw [hi, List.length_map] at hn
    rw [hn]
    -- with enough room for the bytes
    have hle : ∀ l : List Nat, l.length ≤ (l.flatMap (encode .utf8)).length := by
      intro l
      induction l with
      | nil => simp
      | cons a l ih => rw [List.flatMap_cons, List.length_append, List.length_cons]; have := encode_pos .utf8 a; omega
    have := hle cs
    rw [if_pos (by omega)]
    refine iff_of_true (by simp) ?_
    rintro ⟨c, hpos, hget, hbig⟩
    have hlt : limit - 1 < cs.length := (List.getElem?_eq_some_iff.mp hget).1
    -- all of one byte
    have hall : ∀ l : List Nat, (l.flatMap (encode .utf8)).length ≤ l.length → ∀ c ∈ l, c < 0x80 := by
      intro l
      induction l with
      | nil => simp
      | cons a l ih =>
        rw [List.flatMap_cons, List.length_append, List.length_cons]
        intro g
        have h10 := encode_pos .utf8 a
        have h11 := hle l
        intro c hc'
        rcases List.mem_cons.mp hc' with rfl | hc'
        · by_contra hge
          have : 2 ≤ (encode .utf8 c).length := by
            rw [encode]
            split_ifs <;> first | (exfalso; omega) | simp
          omega
        · exact ih (by omega) c hc'
    have := hall cs (by omega) c (List.mem_of_getElem? hget)
    omega
  · rw [if_neg hs, Option.some.injEq]
    exact hloop

/-- C19, decode_unit of UTF-8 with a signed `char`, exactly: it is right for the ASCII units and for no other. -/
theorem decode_unit_signed_iff (u : Nat) (h : u < 256) :
    decodeUnit true .utf8 u = (if encode .utf8 u = [u] then u else 0xFFFD) ↔ u < 0x80 := by
  constructor
  · intro g
    by_contra hu
    obtain ⟨g1, g2⟩ := decode_unit_signed_wrong u (by omega) h
    rw [g] at g1 g2
    by_cases he : encode .utf8 u = [u]
    · rw [if_pos he] at g2; omega
    · rw [if_neg he] at g1; exact g1 rfl
  · intro hu
    rw [← decode_unit_utf8 u h]
    simp [decodeUnit, Nat.not_le.mpr hu, hu]

/-- the hypotheses can be met, on either side -/
example : Units .utf8 [0xC3, 0xA9, 0x61] ∧ Units .utf32 [0x61, 0x80000000] ∧ (∀ c ∈ [0x61, 0xE9, 0x1F600], Scalar false c) := by decide +kernel
example : transcode .utf8 .utf32 ⟨false, false⟩ 1 ([0x61, 0xE9].flatMap (encode .utf8)) = some ⟨[0xC3, 0xA9], [0x61], .insufficient, []⟩ ∧
    unsafeTranscodeSize .utf8 .utf32 ⟨false, false⟩ 1 ([0x61, 0xE9].flatMap (encode .utf8)) = some ⟨1, [0xC3, 0xA9], .insufficient⟩ := by
  decide +kernel

end Strf.Utf

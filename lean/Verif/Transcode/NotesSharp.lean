import Verif.Transcode.NotesProps
import Verif.Dest.Fits
/-!
# C20 and C85: exactly when the error notifier is told twice

A direct conversion tells the notifier of a problem before it looks whether the replacement has room; when it has none the buffer is
emptied and the conversion resumed at the same place, where the problem is told again.
-/
namespace Strf.Transcode
open Strf.Format (CsName CharT CharsetArg)
open Strf.Utf (Reason)
open Strf.Sbc (Flags)
open Strf.Charset (Func Event OnceOrTwice DERes DEPtr)
open Strf.Dest (Dest Lawful)
open Strf.Charset (transcodeLoop)

/-- What the notifier hears of marks, in the order of the source, which has `left` units, when the buffer has room for `room` units and,
each time that it has been emptied, for as many as the next of `rooms` says; after the last of `rooms` it cannot be emptied. A mark
whose text has no room is heard of a second time after the buffer has been emptied. -/
def heard (stop : Mark → Option Reason) (out : Mark → List Nat) (d : CsName) : Nat → List Nat → Nat → List Mark → List Event
  | _, _, _, [] => []
  | room, rooms, left, m :: ms =>
    note d left m ++
      if (stop m).isSome then []
      else if (out m).length ≤ room then heard stop out d (room - (out m).length) rooms (left - m.size) ms
      else
        match rooms with
        | [] => []
        | room' :: rooms => note d left m ++ heard stop out d (room' - (out m).length) rooms (left - m.size) ms

section
variable {σ : Type} {D : Dest Nat σ} {Rep : σ → List Nat → Prop} {func : Func}
  {R : List Nat → List Mark → Prop} {stop : Mark → Option Reason} {out : Mark → List Nat} {d : CsName}

theorem heard_cons (room : Nat) (rooms : List Nat) (left : Nat) (m : Mark) (ms : List Mark) :
    heard stop out d room rooms left (m :: ms) = note d left m ++
      if (stop m).isSome then []
      else if (out m).length ≤ room then heard stop out d (room - (out m).length) rooms (left - m.size) ms
      else
        match rooms with
        | [] => []
        | room' :: rooms => note d left m ++ heard stop out d (room' - (out m).length) rooms (left - m.size) ms := by
  rw [heard.eq_def]

theorem heard_append (room : Nat) (rooms : List Nat) (left : Nat) (done todo : List Mark) (hn : ∀ m ∈ done, stop m = none)
    (hl : (done.flatMap out).length ≤ room) : heard stop out d room rooms left (done ++ todo) =
      notes d left done ++ heard stop out d (room - (done.flatMap out).length) rooms (left - extent done) todo := by
  induction done generalizing room left with
  | nil => simp [notes, extent]
  | cons m ms ih =>
    simp only [List.flatMap_cons, List.length_append] at hl
    rw [List.cons_append, heard_cons, if_neg (by simp [hn m (by simp)]), if_pos (by omega),
      ih _ _ (fun x hx => hn x (by simp [hx])) (by omega), notes, List.append_assoc]
    simp only [List.flatMap_cons, List.length_append]
    rw [show extent (m :: ms) = m.size + extent ms by simp [extent], Nat.sub_sub, Nat.sub_sub]

theorem heard_stop (room : Nat) (rooms : List Nat) (left : Nat) (m : Mark) (ms : List Mark) (h : (stop m).isSome) :
    heard stop out d room rooms left (m :: ms) = note d left m := by
  rw [heard_cons, if_pos h, List.append_nil]

theorem heard_full (room : Nat) (rooms : List Nat) (left : Nat) (m : Mark) (ms : List Mark) (h : stop m = none)
    (hf : room < (out m).length) : heard stop out d room [] left (m :: ms) = note d left m ∧
      ∀ r, (out m).length ≤ r →
        heard stop out d room (r :: rooms) left (m :: ms) = note d left m ++ heard stop out d r rooms left (m :: ms) := by
  constructor
  · rw [heard_cons, if_neg (by simp [h]), if_neg (by omega), List.append_nil]
  · intro r hr
    rw [heard_cons, if_neg (by simp [h]), if_neg (by omega)]
    dsimp only
    rw [heard_cons, if_neg (by simp [h]), if_pos hr]

/-- without emptying each mark is heard of once, up to the last -/
theorem heard_once (room left : Nat) (ms : List Mark) : ∃ before todo, ms = before ++ todo ∧
    heard stop out d room [] left ms = notes d left (before ++ todo.take 1) := by
  induction ms generalizing room left with
  | nil => exact ⟨[], [], rfl, rfl⟩
  | cons m ms ih =>
    rw [heard_cons]
    by_cases h1 : (stop m).isSome
    · rw [if_pos h1]; exact ⟨[], m :: ms, rfl, by simp [notes]⟩
    · rw [if_neg h1]
      by_cases h2 : (out m).length ≤ room
      · rw [if_pos h2]
        obtain ⟨b, t, e, h⟩ := ih (room - (out m).length) (left - m.size)
        exact ⟨m :: b, t, by rw [e]; rfl, by rw [h]; rfl⟩
      · rw [if_neg h2]; exact ⟨[], m :: ms, rfl, by simp [notes]⟩

/-- if all has room, each mark is heard of once -/
theorem heard_fits (room : Nat) (rooms : List Nat) (left : Nat) (ms : List Mark) (hn : ∀ m ∈ ms, stop m = none)
    (hl : (ms.flatMap out).length ≤ room) : heard stop out d room rooms left ms = notes d left ms := by
  have := heard_append (d := d) room rooms left ms [] hn hl
  rw [List.append_nil] at this
  rw [this]; simp [heard]

/-- a mark that is noted is heard of twice if it is the first that has no room and then has -/
theorem heard_twice (room : Nat) (r : Nat) (rooms : List Nat) (left : Nat) (a : List Mark) (m : Mark) (b : List Mark)
    (hn : ∀ x ∈ a, stop x = none) (hm : stop m = none) (hl : (a.flatMap out).length ≤ room)
    (hf : room < (a.flatMap out).length + (out m).length) (hr : (out m).length ≤ r) :
    ∃ l, heard stop out d room (r :: rooms) left (a ++ m :: b) =
      notes d left a ++ note d (left - extent a) m ++ note d (left - extent a) m ++ l := by
  rw [heard_append _ _ _ _ _ hn hl, (heard_full _ rooms _ m b hm (by omega)).2 r hr, heard_cons, if_neg (by simp [hm]), if_pos hr]
  exact ⟨heard stop out d (r - (out m).length) rooms (left - extent a - m.size) b, by simp only [List.append_assoc]⟩

theorem Tells.hears (L : Lawful D Rep) (W : Tells func R stop out d) (HR : Reads R) (ho : ∀ m, (out m).length ≤ 64)
    {P : Nat → Prop} (hP : ∀ s t, Rep s t → D.space s < 64 → D.good (D.recycle s) = true → P (D.space (D.recycle s))) (fuel : Nat) :
    ∀ (s : σ) (t src : List Nat) (ms : List Mark), R src ms → Rep s t →
      (ms.length + 1 < fuel ∨ (ms.length < fuel ∧ 64 ≤ D.space s)) →
      ∃ s' q rooms, transcodeLoop D func fuel s src = some (s', q) ∧ (∀ r ∈ rooms, P r) ∧ rooms.length ≤ ms.length ∧
        (64 ≤ D.space s → ms ≠ [] → rooms.length < ms.length) ∧
        ∀ more, (D.good s' = true ∨ more = []) →
          q.events = heard stop out d (D.space s) (rooms ++ more) src.length ms := by
  induction fuel with
  | zero => intro s t src ms _ _ h; omega
  | succ fuel ih =>
    intro s t src ms hR hr hf
    unfold transcodeLoop
    obtain ⟨done, todo, why, e0, hn, hl, e1, hE⟩ := W (D.space s) src ms hR
    rw [e1]
    obtain ⟨s1, ep, r1, sz1, g1⟩ := L.poke s t (done.flatMap out) hr hl
    dsimp only
    rw [ep]
    dsimp only
    have hsay : ∀ rooms, heard stop out d (D.space s) rooms src.length ms = notes d src.length done ++
        heard stop out d (D.space s - (done.flatMap out).length) rooms (src.length - extent done) todo := by
      intro rooms; rw [e0]; exact heard_append _ _ _ _ _ hn hl
    by_cases hw : why = .insufficient
    · subst hw
      rw [if_neg (by simp)]
      rcases todo with _ | ⟨m, todo⟩
      · cases hE
      rcases hE with ⟨_, h, _⟩ | ⟨hm, _, hfull⟩
      · exact absurd rfl h
      have h64 := ho m
      obtain ⟨r2, sp2, g2⟩ := L.recycle s1 _ r1 (by omega)
      have hdone : 64 ≤ D.space s → 1 ≤ done.length := by
        intro h; rcases done with _ | ⟨a, b⟩
        · simp at hfull; omega
        · simp
      have hlen : ms.length = done.length + todo.length + 1 := by rw [e0]; simp; omega
      have hsaid : notes d src.length (done ++ [m]) = notes d src.length done ++ note d (src.length - extent done) m := by
        rw [notes_append]; simp [notes]
      by_cases hg : D.good (D.recycle s1) = true
      · rw [if_neg (by simp [hg])]
        obtain ⟨s', q, rooms, e3, b1, b2, b3, b4⟩ := ih (D.recycle s1) (t ++ done.flatMap out)
          (src.drop (extent done)) (m :: todo) (HR.drop _ _ _ (e0 ▸ hR)) r2
          (by simp only [List.length_cons]
              rcases hf with hf | ⟨hf, hf2⟩
              · right; constructor <;> omega
              · have := hdone hf2; right; constructor <;> omega)
        rw [e3]
        have b3 := b3 sp2 (by simp)
        rw [List.length_cons] at b3
        refine ⟨s', _, D.space (D.recycle s1) :: rooms, rfl, ?_, ?_, ?_, ?_⟩
        · intro r hr
          rcases List.mem_cons.1 hr with rfl | hr
          · exact hP _ _ r1 (by omega) hg
          · exact b1 r hr
        · rw [List.length_cons]; omega
        · intro h _; have := hdone h; rw [List.length_cons]; omega
        · intro more hmore
          dsimp only
          rw [b4 more hmore, hsay, List.length_drop, List.cons_append, (heard_full _ _ _ m todo hm (by omega)).2 _ (by omega)]
          simp only [List.take_succ_cons, List.take_zero]
          rw [hsaid, List.append_assoc]
      · rw [if_pos (by simpa using hg)]
        refine ⟨D.recycle s1, _, [], rfl, by simp, by simp, fun _ h => List.length_pos_iff.2 h, ?_⟩
        rintro more (h | rfl)
        · exact absurd h hg
        · dsimp only
          rw [hsay, List.append_nil, (heard_full _ [] _ m todo hm (by omega)).1]
          simp only [List.take_succ_cons, List.take_zero]
          rw [hsaid]
    · rw [if_pos hw]
      refine ⟨s1, _, [], rfl, by simp, by simp, fun _ h => List.length_pos_iff.2 h, ?_⟩
      intro more _
      dsimp only
      rw [hsay]
      rcases todo with _ | ⟨m, todo⟩
      · simp [heard]
      · rcases hE with ⟨h, _⟩ | ⟨_, h, _⟩
        · rw [heard_stop _ _ _ _ _ (by simp [h]), notes_append]; simp [notes]
        · exact absurd h hw
end

/-- with the flags and the encodings of the charset -/
abbrev heardOf (f : Flags) (d : CsName) (room : Nat) (rooms : List Nat) (left : Nat) (ms : List Mark) : List Event :=
  heard (stopAt f d) (fun m => units d m.char) d room rooms left ms

section
variable {σ : Type} {D : Dest Nat σ} {Rep : σ → List Nat → Prop}

/-- C20, C85: a direct conversion to a destination of any kind tells exactly what `heard` says, for some sizes (with `P`, of which the
destination's are known to be) that the buffer had each time it was emptied. -/
theorem direct_dst_heard (L : Lawful D Rep) {P : Nat → Prop}
    (hP : ∀ s t, Rep s t → D.space s < 64 → D.good (D.recycle s) = true → P (D.space (D.recycle s)))
    (S T : CharT) (s d : CharsetArg) (hs : s.name.unitSize = S.size)
    (hd : d.name.unitSize = T.size) (hdir : Direct s.name d.name) (f : Flags) (src : List Nat) (ms : List Mark) (hu : Units s.name src)
    (hm : Marks f.lax s.name src ms) (hsp : Spared true f s.name d.name ms) (st : σ) (t : List Nat) (hr : Rep st t)
    (hg : D.good st = true) :
    ∃ st' q rooms, transcodeDst D S T s d f st src = some (st', q) ∧ (∀ r ∈ rooms, P r) ∧ rooms.length ≤ ms.length ∧
      ∀ more, (D.good st' = true ∨ more = []) → q.events = heardOf f d.name (D.space st) (rooms ++ more) src.length ms := by
  unfold transcodeDst
  rw [find_exact S T s d hs hd, if_pos ((direct_iff _ _).2 hdir)]
  dsimp only
  unfold Charset.transcodeTo
  rw [if_neg (by simp [hg])]
  obtain ⟨s', q, rooms, e, h1, h2, -, h3⟩ := (tr_tells f s.name d.name ((direct_iff _ _).2 hdir)).hears L
    (legible_reads true f _ _) (fun m => units_length _ m.char) hP (src.length + 2) st t src ms ⟨hu, hm, hsp⟩ hr
    (by have := hm.length; omega)
  rw [e]
  exact ⟨s', _, rooms, rfl, h1, h2, h3⟩

/-- C20, C85: if the buffer has the same size `B` each time it has been emptied, a direct conversion during which the destination does
not fail tells exactly what `heard` says of that size. -/
theorem direct_dst_heard_steady (L : Lawful D Rep) {B : Nat}
    (hB : ∀ s t, Rep s t → D.space s < 64 → D.good (D.recycle s) = true → D.space (D.recycle s) = B)
    (S T : CharT) (s d : CharsetArg) (hs : s.name.unitSize = S.size)
    (hd : d.name.unitSize = T.size) (hdir : Direct s.name d.name) (f : Flags) (src : List Nat) (ms : List Mark) (hu : Units s.name src)
    (hm : Marks f.lax s.name src ms) (hsp : Spared true f s.name d.name ms) (st : σ) (t : List Nat) (hr : Rep st t)
    (hg : D.good st = true) :
    ∃ st' q, transcodeDst D S T s d f st src = some (st', q) ∧
      (D.good st' = true → q.events = heardOf f d.name (D.space st) (List.replicate ms.length B) src.length ms) ∧
      (D.good st' = false → ∃ n ≤ ms.length, q.events = heardOf f d.name (D.space st) (List.replicate n B) src.length ms) := by
  obtain ⟨st', q, rooms, e, h1, h2, h3⟩ := direct_dst_heard L (P := fun r => r = B) hB S T s d hs hd hdir f src ms hu hm hsp st t hr hg
  have hrep : rooms = List.replicate rooms.length B := List.eq_replicate_iff.2 ⟨rfl, h1⟩
  refine ⟨st', q, e, fun h => ?_, fun _ => ⟨rooms.length, h2, ?_⟩⟩
  · rw [h3 (List.replicate (ms.length - rooms.length) B) (.inl h)]
    rw [hrep, List.length_replicate, ← List.replicate_add]
    congr 2; omega
  · have := h3 [] (.inr rfl)
    rwa [List.append_nil, hrep] at this
end

/-! ### The destinations -/

open Strf.Dest (Maker Appender Writer World)

/-- C85: to a new string -/
theorem direct_string_heard (S T : CharT) (s d : CharsetArg) (hs : s.name.unitSize = S.size)
    (hd : d.name.unitSize = T.size) (hdir : Direct s.name d.name) (f : Flags) (src : List Nat) (ms : List Mark) (hu : Units s.name src)
    (hm : Marks f.lax s.name src ms) (hsp : Spared true f s.name d.name ms) (junk : List Nat) (hj : junk.length = 64) :
    ∃ st' q, transcodeDst Maker.dest S T s d f (Maker.init junk) src = some (st', q) ∧
      q.events = heardOf f d.name 64 (List.replicate ms.length 64) src.length ms := by
  obtain ⟨st', q, e, h1, -⟩ := direct_dst_heard_steady (B := 64) (Dest.LawfulAll.lawful Maker.lawfulAll)
    (by
      intro s t hr _ _
      obtain ⟨h1, -⟩ := hr
      show (Maker.recycleE true s).1.buf.length - (Maker.recycleE true s).1.ptr = 64
      unfold Maker.recycleE
      dsimp only
      cases hg : s.good <;> cases hi : s.inited <;> simp [h1])
    S T s d hs hd hdir f src ms hu hm hsp (Maker.init junk) [] (Dest.Maker.rep_init hj) rfl
  have hgood : Maker.dest.good st' = true := by
    obtain ⟨st2, q2, out, todo, e2, r, -⟩ := direct_dst_notes_partial Maker.lawful S T s d hs hd hdir f src ms hu hm hsp
      (Maker.init junk) [] (Dest.Maker.rep_init hj) rfl
    rw [e] at e2
    injection e2 with e2
    injection e2 with e2 _
    rw [e2]; exact r.2.2.1
  refine ⟨st', q, e, ?_⟩
  have := h1 hgood
  rwa [show Maker.dest.space (Maker.init junk) = 64 by simp [Maker.init, hj]] at this

/-- C85: to a `FILE*`, whatever the buffer size, if all could be written -/
theorem direct_cfile_heard (S T : CharT) (s d : CharsetArg) (hs : s.name.unitSize = S.size)
    (hd : d.name.unitSize = T.size) (hdir : Direct s.name d.name) (f : Flags) (src : List Nat) (ms : List Mark) (hu : Units s.name src)
    (hm : Marks f.lax s.name src ms) (hsp : Spared true f s.name d.name ms) (acc : World Nat) (junk : List Nat)
    (hj : 64 ≤ junk.length) :
    ∃ st' q, transcodeDst (Dest.Writer.cfile acc) S T s d f (Writer.init junk) src = some (st', q) ∧
      (st'.good = true → q.events = heardOf f d.name junk.length (List.replicate ms.length junk.length) src.length ms) := by
  obtain ⟨st', q, e, h1, -⟩ := direct_dst_heard_steady (B := junk.length) (Dest.Writer.lawfulOnce acc junk.length)
    (by
      rintro s t ⟨hr, ho, -⟩ _ _
      show (Writer.recycle acc s).buf.length - (Writer.recycle acc s).ptr = junk.length
      unfold Writer.recycle
      dsimp only [Writer.send]
      split <;> simp [ho])
    S T s d hs hd hdir f src ms hu hm hsp (Writer.init junk) [] ⟨Dest.Writer.rep_init hj, Dest.Writer.once_init junk⟩ rfl
  exact ⟨st', q, e, h1⟩

/-- C85: to a `std::basic_streambuf`, whatever the buffer size, if all could be written -/
theorem direct_streambuf_heard (S T : CharT) (s d : CharsetArg) (hs : s.name.unitSize = S.size)
    (hd : d.name.unitSize = T.size) (hdir : Direct s.name d.name) (f : Flags) (src : List Nat) (ms : List Mark) (hu : Units s.name src)
    (hm : Marks f.lax s.name src ms) (hsp : Spared true f s.name d.name ms) (acc : World Nat) (junk : List Nat)
    (hj : 64 ≤ junk.length) :
    ∃ st' q, transcodeDst (Dest.Writer.streambuf acc) S T s d f (Writer.init junk) src = some (st', q) ∧
      (st'.good = true → q.events = heardOf f d.name junk.length (List.replicate ms.length junk.length) src.length ms) := by
  obtain ⟨st', q, e, h1, -⟩ := direct_dst_heard_steady (B := junk.length) (Dest.Writer.lawfulOnceSb acc junk.length)
    (by
      rintro s t ⟨hr, ho, -⟩ _ _
      show (Writer.recycle acc s).buf.length - (Writer.recycle acc s).ptr = junk.length
      unfold Writer.recycle
      dsimp only [Writer.send]
      split <;> simp [ho])
    S T s d hs hd hdir f src ms hu hm hsp (Writer.init junk) [] ⟨Dest.Writer.repSb_init hj, Dest.Writer.once_init junk⟩ rfl
  exact ⟨st', q, e, h1⟩

/-- C20, C85: to a range of `N` units: nothing is told twice, since it is never emptied. So it is with arrays. -/
theorem direct_range_heard (S T : CharT) (s d : CharsetArg) (hs : s.name.unitSize = S.size)
    (hd : d.name.unitSize = T.size) (hdir : Direct s.name d.name) (f : Flags) (src : List Nat) (ms : List Mark) (hu : Units s.name src)
    (hm : Marks f.lax s.name src ms) (hsp : Spared true f s.name d.name ms) (arr garb : List Nat) (hg : garb.length = 64) :
    ∃ st' q, transcodeDst Dest.Arr.dest S T s d f (Dest.Arr.initArray arr garb) src = some (st', q) ∧
      q.events = heardOf f d.name arr.length [] src.length ms ∧
      ∃ before todo, ms = before ++ todo ∧ q.events = notes d.name src.length (before ++ todo.take 1) := by
  obtain ⟨st', q, rooms, e, h1, -, h3⟩ := direct_dst_heard (P := fun _ => False) (Dest.Arr.lawful arr.length arr.length)
    (by
      intro s t _ _ h
      have h : (Dest.Arr.recycle s).good = true := h
      unfold Dest.Arr.recycle at h
      cases hg : s.good <;> simp [hg] at h)
    S T s d hs hd hdir f src ms hu hm hsp (Dest.Arr.initArray arr garb) [] (Dest.Arr.rep_initArray arr garb hg) rfl
  have : rooms = [] := by
    rcases rooms with _ | ⟨r, _⟩
    · rfl
    · exact (h1 r (by simp)).elim
  subst this
  have h : q.events = heardOf f d.name arr.length [] src.length ms := by
    have := h3 [] (.inr rfl)
    simpa [Dest.Arr.initArray, Dest.Arr.space] using this
  refine ⟨st', q, e, h, ?_⟩
  rw [h]
  exact heard_once ..

/-- the text of `notes_twice_wrong`, one unit of which does not fit: at the end of the buffer it is told twice, one place earlier once -/
example : heardOf ⟨false, false, false⟩ (.utf .utf8) 64 [64] 64 (List.replicate 63 ⟨0x61, 1, false⟩ ++ [⟨0xFFFD, 1, true⟩]) =
      [.invalid 1 1, .invalid 1 1] ∧
    heardOf ⟨false, false, false⟩ (.utf .utf8) 64 [64] 62 (List.replicate 61 ⟨0x61, 1, false⟩ ++ [⟨0xFFFD, 1, true⟩]) =
      [.invalid 1 1] := by
  decide +kernel

/-- the hypotheses are met -/
example : ∃ st' q, transcodeDst Maker.dest .char .char ⟨.utf .utf8, true⟩ ⟨.utf .utf8, true⟩ ⟨false, false, false⟩
      (Maker.init (List.replicate 64 0)) [0x61, 0xFF] = some (st', q) ∧
    q.events = heardOf ⟨false, false, false⟩ (.utf .utf8) 64 (List.replicate 2 64) 2 [⟨0x61, 1, false⟩, ⟨0xFFFD, 1, true⟩] :=
  direct_string_heard .char .char ⟨.utf .utf8, true⟩ ⟨.utf .utf8, true⟩ rfl rfl (by simp [Direct]) ⟨false, false, false⟩ [0x61, 0xFF] _
    (by unfold Units Utf.Units; decide)
    ⟨[.ch 0x61, .bad 1], by
      have h := Utf.parses_items (e := .utf8) (lax := false) [0x61, 0xFF] (by decide)
      have e : Utf.items .utf8 false [0x61, 0xFF] = [.ch 0x61, .bad 1] := by decide +kernel
      rwa [e] at h, rfl⟩ trivial _ rfl

end Strf.Transcode

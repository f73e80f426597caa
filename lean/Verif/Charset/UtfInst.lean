import Verif.Charset.Lemmas
import Verif.Utf.Props
/-! # The UTF transcoders work piece by piece -/
namespace Strf.Charset
open Strf.Utf

/-- The notifier calls for ill-formed items. -/
def noteEvents (ns : List Note) : List Event := ns.map fun n => .invalid n.fromEnd n.size

/-- transcode of utf.hpp as a transcode_f. -/
def utfFunc (s d : Enc) (f : Flags) : Func := fun room src => (transcode s d f room src).map ofTR
/-- unsafe_transcode of utf.hpp as a transcode_f. -/
def utfUnsafe (s d : Enc) (f : Flags) : Func := fun room src => (unsafeTranscode s d f room src).map ofTR

/-- The pieces for the items of a source of `len` units. -/
def pieces (s d : Enc) (len : Nat) : List Item → List Piece
  | [] => []
  | i :: is => ⟨encode d i.char, i.size s, if i.isBad then [.invalid len (i.size s)] else []⟩ ::
      pieces s d (len - i.size s) is

theorem outs_pieces (s d : Enc) (len : Nat) (is : List Item) : outs (pieces s d len is) = render d is := by
  induction is generalizing len with
  | nil => rfl
  | cons i is ih => rw [pieces, outs_cons, ih]; rfl

theorem evs_pieces (s d : Enc) (len : Nat) (is : List Item) :
    evs (pieces s d len is) = noteEvents (badNotes s len is) := by
  induction is generalizing len with
  | nil => rfl
  | cons i is ih =>
    rw [pieces, evs_cons, ih]
    cases i with
    | ch c => rfl
    | bad n => rfl

theorem encode_le (e : Enc) (c : Nat) : (encode e c).length ≤ 4 := by
  cases e <;> simp only [encode] <;> (try split_ifs) <;> simp

theorem oneEach_pieces (s : Enc) (ok : Nat → Prop) (len : Nat) (is : List Item) (h : ∀ i ∈ is, ok i.char) :
    OneEach ok (pieces s .utf32 len is) := by
  induction is generalizing len with
  | nil => intro p hp; cases hp
  | cons i is ih =>
    intro p hp
    rcases List.mem_cons.1 hp with rfl | hp
    · exact ⟨i.char, rfl, h i (by simp)⟩
    · exact ih _ (fun j hj => h j (by simp [hj])) p hp

/-- What the transcoder passes: everything, or with the stop flag what precedes the first ill-formed sequence. -/
def passed (stop : Bool) (is : List Item) : List Item := is.takeWhile fun i => !(stop && i.isBad)

theorem passed_false (is : List Item) : passed false is = is := by
  unfold passed
  induction is with
  | nil => rfl
  | cons i is ih => simp at ih ⊢; exact ih

theorem passed_prefix (stop : Bool) (is : List Item) : passed stop is <+: is := List.takeWhile_prefix _

theorem passed_ch (stop : Bool) (cs : List Nat) : passed stop (cs.map Item.ch) = cs.map Item.ch := by
  unfold passed
  induction cs with
  | nil => rfl
  | cons c cs ih => rw [List.map_cons, List.takeWhile_cons, ih]; simp [Item.isBad]

theorem scripted_of_spec {func : Func} {s d : Enc} {f : Flags} (I : List Nat → Prop)
    (hf : ∀ room src, I src → func room src = (specRun s d f room src).map ofTR)
    (hI : ∀ ch t, I (ch :: t) → I (t.drop ((dec s f.lax ch t).n - 1)))
    (src : List Nat) (hi : I src) (h : Units s src) :
    ∃ why rest ev, Scripted func src (pieces s d src.length (passed f.stop (items s f.lax src))) why rest ev ∧
      ((why = .completed ∧ rest = [] ∧ ev = [] ∧ passed f.stop (items s f.lax src) = items s f.lax src) ∨
       (why = .invalid ∧ f.stop = true ∧ ∃ n more, items s f.lax src =
          passed f.stop (items s f.lax src) ++ .bad n :: more ∧
          rest = src.drop (extent s (passed f.stop (items s f.lax src))) ∧ ev = [.invalid rest.length n])) := by
  induction hn : src.length using Nat.strongRecOn generalizing src with
  | _ n ih =>
    subst hn
    rcases src with _ | ⟨ch, t⟩
    · refine ⟨.completed, [], [], ?_, .inl ⟨rfl, rfl, rfl, ?_⟩⟩
      · unfold items
        refine .done (by simp) fun room => ?_
        rw [hf _ _ hi]; unfold specRun run; rfl
      · unfold items; rfl
    · have ok := dec_ok (lax := f.lax) h
      have hp := ok.n_pos
      have hle := ok.n_le
      have hsz := ok.n_eq
      have hi2 := hI ch t hi
      have hd : (t.drop ((dec s f.lax ch t).n - 1)).length ≤ t.length := by simp
      have hdc : (ch :: t).drop (dec s f.lax ch t).n = t.drop ((dec s f.lax ch t).n - 1) := drop_cons_pred hp
      obtain ⟨why, rest, ev, hS, hE⟩ := ih (t.drop ((dec s f.lax ch t).n - 1)).length (by simp; omega) _ hi2
        (h.tail.drop _) rfl
      have hfun : ∀ room, func room (ch :: t) = (match specStep d f.stop room ch t (dec s f.lax ch t) with
          | .ub => none
          | .ret rest why notes => some (ofTR ⟨rest, [], why, notes⟩)
          | .cont units next notes =>
            if _h : next.length ≤ t.length then
              ((specRun s d f (room - units.length) next).map fun r =>
                { r with out := units ++ r.out, notes := notes ++ r.notes }).map ofTR
            else none) := by
        intro room
        rw [hf _ _ hi]
        unfold specRun
        rw [run]
        generalize specStep d f.stop room ch t (dec s f.lax ch t) = st
        cases st with
        | ub => rfl
        | ret => rfl
        | cont u nx nt => dsimp only; split_ifs <;> rfl
      unfold items
      revert hS hE hfun
      generalize hk : dec s f.lax ch t = k at *
      obtain ⟨i, n⟩ := k
      dsimp only at hp hle hsz hi2 hd hdc ⊢
      intro hS hE hfun
      by_cases c0 : (f.stop && i.isBad) = true
      · have hpass : passed f.stop (i :: items s f.lax (t.drop (n - 1))) = [] := by
          unfold passed; rw [List.takeWhile_cons]; simp [c0]
        rw [hpass]
        have c1 := c0
        simp only [Bool.and_eq_true] at c1
        cases i with
        | ch c => simp [Item.isBad] at c1
        | bad m =>
          have hnm : n = m := hsz
          refine ⟨.invalid, ch :: t, [.invalid (ch :: t).length m], .done (by simp) fun room => ?_, .inr
            ⟨rfl, c1.1, m, _, rfl, rfl, rfl⟩⟩
          rw [hfun]; unfold specStep; dsimp only; rw [if_pos c0]; simp [ofTR, Item.isBad, hnm]
      · have hpass : passed f.stop (i :: items s f.lax (t.drop (n - 1))) =
            i :: passed f.stop (items s f.lax (t.drop (n - 1))) := by
          unfold passed; rw [List.takeWhile_cons]; simp only [c0]; rfl
        rw [hpass]
        have hlen : (ch :: t).length - i.size s = (t.drop (n - 1)).length := by
          rw [← hsz]; simp; omega
        refine ⟨why, rest, ev, ?_, ?_⟩
        · rw [pieces, hlen]
          refine Scripted.more (encode_pos _ _) (by have := encode_le d i.char; show (encode d i.char).length ≤ 64; omega)
            (by show 1 ≤ i.size s; omega) (by show i.size s ≤ _; omega) ?_ ?_ ?_
          · intro room hr
            have hr : room < (encode d i.char).length := hr
            rw [hfun]; unfold specStep; dsimp only; rw [if_neg c0, if_pos hr]
            simp only [ofTR, ← hsz]
            cases i.isBad <;> rfl
          · intro room hr
            have hr : (encode d i.char).length ≤ room := hr
            rw [hfun]; unfold specStep; dsimp only; rw [if_neg c0, if_neg (by omega)]
            dsimp only
            rw [dif_pos hd, ← hsz, hdc, hf _ _ hi2]
            rw [Option.map_map, Option.map_map]
            congr 1
            funext r
            simp only [Function.comp, ofTR]
            cases i.isBad <;> rfl
          · show Scripted func ((ch :: t).drop (i.size s)) _ _ _ _
            rw [← hsz, hdc]; exact hS
        · rcases hE with ⟨a, b, c, e⟩ | ⟨a, b, m, more, c, e, g⟩
          · exact .inl ⟨a, b, c, by rw [e]⟩
          · refine .inr ⟨a, b, m, more, ?_, ?_, g⟩
            · rw [List.cons_append, ← c]
            · rw [e, extent, ← hsz, ← List.drop_drop, hdc]

/-- transcode of utf.hpp. -/
theorem utf_scripted (s d : Enc) (f : Flags) (src : List Nat) (h : Units s src) :
    ∃ why rest ev, Scripted (utfFunc s d f) src (pieces s d src.length (passed f.stop (items s f.lax src))) why rest ev ∧
      ((why = .completed ∧ rest = [] ∧ ev = [] ∧ passed f.stop (items s f.lax src) = items s f.lax src) ∨
       (why = .invalid ∧ f.stop = true ∧ ∃ n more, items s f.lax src =
          passed f.stop (items s f.lax src) ++ .bad n :: more ∧
          rest = src.drop (extent s (passed f.stop (items s f.lax src))) ∧ ev = [.invalid rest.length n])) :=
  scripted_of_spec (Units s) (fun room src hu => by unfold utfFunc; rw [transcode_eq_spec s d f room src hu])
    (fun _ _ hu => hu.tail.drop _) src h h

theorem items32 (lax : Bool) (cs : List Nat) (h : ∀ c ∈ cs, Scalar lax c) : items .utf32 lax cs = cs.map .ch := by
  have hw : cs = cs.flatMap (encode .utf32) := by
    clear h
    induction cs with
    | nil => rfl
    | cons c cs ih => rw [List.flatMap_cons, ← ih]; rfl
  have hu : Units .utf32 cs := fun u hu => by have := (h u hu).1; show u < 0x100000000; omega
  have := parses_wf (e := .utf32) (lax := lax) (by simp) cs h
  rw [← hw] at this
  exact parses_unique (parses_items _ hu) this

theorem pieces_ch32 (d : Enc) (len : Nat) (cs : List Nat) :
    pieces .utf32 d len (cs.map .ch) = cs.map fun c => ⟨encode d c, 1, []⟩ := by
  induction cs generalizing len with
  | nil => rfl
  | cons c cs ih => rw [List.map_cons, pieces, ih]; rfl

/-- The functions from UTF-32 encode character by character. -/
theorem utf_charWise (d : Enc) (f : Flags) : CharWise (utfFunc .utf32 d f) (Scalar f.lax) (encode d) (fun _ => []) := by
  intro cs hc
  have hu : Units .utf32 cs := fun u hu => by have := (hc u hu).1; show u < 0x100000000; omega
  obtain ⟨why, rest, ev, hS, hE⟩ := utf_scripted .utf32 d f cs hu
  rw [items32 _ _ hc] at hS hE
  have hp := passed_ch f.stop cs
  rw [hp, pieces_ch32] at hS
  rcases hE with ⟨rfl, rfl, rfl, _⟩ | ⟨_, _, n, more, h1, _⟩
  · exact hS
  · rw [hp] at h1
    have := congrArg List.length h1
    simp at this

theorem unsafe_charWise (d : Enc) (f : Flags) :
    CharWise (utfUnsafe .utf32 d f) (Scalar f.lax) (encode d) (fun _ => []) := by
  intro cs hc
  have hw : ∀ cs : List Nat, (∀ c ∈ cs, Scalar f.lax c) → Units .utf32 cs ∧ AllGood .utf32 f.lax cs := by
    intro cs hc
    refine ⟨fun u hu => by have := (hc u hu).1; show u < 0x100000000; omega, ?_⟩
    unfold AllGood
    rw [items32 _ _ hc]
    intro i hi
    obtain ⟨c, _, rfl⟩ := List.mem_map.1 hi
    rfl
  have hu := (hw cs hc).1
  obtain ⟨why, rest, ev, hS, hE⟩ := scripted_of_spec (func := utfUnsafe .utf32 d f) (s := .utf32) (d := d) (f := f)
    (fun l => ∀ c ∈ l, Scalar f.lax c)
    (fun room src hs => by unfold utfUnsafe; rw [unsafe_spec .utf32 d f room src (hw src hs).1 (hw src hs).2])
    (fun ch t hs c hcm => hs c (List.mem_cons_of_mem _ (List.mem_of_mem_drop hcm))) cs hc hu
  rw [items32 _ _ hc] at hS hE
  have hp := passed_ch f.stop cs
  rw [hp, pieces_ch32] at hS
  rcases hE with ⟨rfl, rfl, rfl, _⟩ | ⟨_, _, n, more, h1, _⟩
  · exact hS
  · rw [hp] at h1
    have := congrArg List.length h1
    simp at this

/-- transcode_size and unsafe_transcode_size from UTF-32. -/
theorem utf_sizeWise (signed : Bool) (d : Enc) (lax : Bool) :
    SizeWise (transcodeSize signed .utf32 d ⟨lax, false⟩) (Scalar lax) (encode d) := by
  intro limit cs hc hl
  have hu : Units .utf32 cs := fun u hu => by have := (hc u hu).1; show u < 0x100000000; omega
  obtain ⟨r, e, h1, h2⟩ := transcode_size_exact_partial signed .utf32 d ⟨lax, false⟩ limit cs hu (by simp) (by simp)
  have := transcode_complete .utf32 d ⟨lax, false⟩ cs hu limit
    (by dsimp only; rw [items32 _ _ hc, render_eq, map_char_ch]; exact hl) (by simp)
  dsimp only at this
  rw [items32 _ _ hc, render_eq, map_char_ch] at this
  rw [this] at e
  cases e
  exact h2

theorem unsafe_sizeWise (d : Enc) (lax : Bool) :
    SizeWise (unsafeTranscodeSize .utf32 d ⟨lax, false⟩) (Scalar lax) (encode d) := by
  intro limit cs hc hl
  have hu : Units .utf32 cs := fun u hu => by have := (hc u hu).1; show u < 0x100000000; omega
  have hw : WellFormed .utf32 lax cs := ⟨cs, hc, by
    clear hc hl hu
    induction cs with
    | nil => rfl
    | cons c cs ih => rw [List.flatMap_cons, ← ih]; rfl⟩
  obtain ⟨r, e, h2⟩ := unsafe_size_agrees_partial .utf32 d ⟨lax, false⟩ limit cs hw (by simp)
  have := transcode_complete .utf32 d ⟨lax, false⟩ cs hu limit
    (by dsimp only; rw [items32 _ _ hc, render_eq, map_char_ch]; exact hl) (by simp)
  dsimp only at this
  rw [items32 _ _ hc, render_eq, map_char_ch] at this
  rw [this] at e
  cases e
  exact h2

end Strf.Charset

import Verif.Print.TrMeans
/-!
# Properties C40, C41 and C42: tr-strings
-/
namespace Strf.Print
open Strf.Tr
open Strf.Width
open Strf.Dest (Dest Lawful Prints)
open Strf.IntPrinter (AlignFmt)

variable {σ : Type} {D : Dest Nat σ} {Rep : σ → List Nat → Prop}

/-- write_replacement_char and replacement_char_size of the charsets: utf.hpp (Utf/ModelEncode.lean 61–75) and
single_byte_charsets.hpp 2923–2932 -/
def Cs.repl (D : Dest Nat σ) : Cs → Repl σ
  | .utf e => ⟨fun s => Utf.writeReplacement D s e, Utf.replacementCharSize e⟩
  | .sbc _ => ⟨Sbc.writeReplacement D, 1⟩

/-- docs/ref_printable_types.adoc 423–425: the replacement character is U+FFFD, or "?" when the charset can't represent it -/
def Cs.replacement : Cs → List Nat
  | .utf e => Utf.encode e 0xFFFD
  | .sbc _ => [0x3F]

theorem Cs.repl_lawful (L : Lawful D Rep) (s : Cs) : (s.repl D).Lawful D Rep s.replacement := by
  cases s with
  | utf e =>
    refine ⟨Utf.writeReplacement_prints L e, ?_⟩
    cases e <;> rfl
  | sbc I => exact ⟨L.prints_put (τ := true) 0x3F, rfl⟩

/-- C40: every tr-string can be read according to the syntax, in just one way. -/
theorem tr_syntax (str : List Nat) : ∃! segs, Reads 0 str segs := by
  obtain ⟨segs, h⟩ := reads_exists str.length str (Nat.le_refl _) 0
  exact ⟨segs, h, fun _ h' => reads_unique h' h⟩

/-- as tr_write_exact, with what it says of the room -/
theorem tr_write_after (L : Lawful D Rep) (cs : Cs) {args : List (σ → Option σ)} {texts : List (List Nat)}
    (HA : ArgsPrint τ D Rep args texts) (str : List Nat) (segs : List Seg) (h : Reads 0 str segs) (s : σ) (t : List Nat)
    (hs : Rep s t) :
    ∃ s', trStringWrite D (cs.repl D) args str (s, []) = some (s', missing texts.length 0 segs) ∧
      Rep s' (t ++ expand texts cs.replacement 0 segs) ∧ Dest.After τ D s s' (expand texts cs.replacement 0 segs).length := by
  obtain ⟨s', w1, w2, w3⟩ := (trWrite_spec L (cs.repl_lawful L) HA str.length (str.length + 1) str 0 0 segs (by omega)).1
    (by omega) h (s, []) t hs
  rw [Nat.zero_min, List.nil_append, HA.len] at w1
  exact ⟨s', w1, w2, w3⟩

/-- C40, C42: whatever the tr-string and the number of arguments, strf::tr (and `.tr(str, args...)`) prints the text, the
arguments and the replacement characters that the syntax calls for, without undefined behaviour, and the error notifier
is called with the position of the `{` of each reference to an argument that does not exist, once and in order. -/
theorem tr_write_exact (L : Lawful D Rep) (cs : Cs) {args : List (σ → Option σ)} {texts : List (List Nat)}
    (HA : ArgsPrint τ D Rep args texts) (str : List Nat) (segs : List Seg) (h : Reads 0 str segs) (s : σ) (t : List Nat)
    (hs : Rep s t) :
    ∃ s', trStringWrite D (cs.repl D) args str (s, []) = some (s', missing texts.length 0 segs) ∧
      Rep s' (t ++ expand texts cs.replacement 0 segs) := by
  obtain ⟨s', w1, w2, _⟩ := tr_write_after L cs HA str segs h s t hs
  exact ⟨s', w1, w2⟩

/-- C42: the positions reported are positions of `{` in the string, and increase. -/
theorem tr_missing_braces {i : Nat} {l : List Nat} {segs : List Seg} (h : Reads i l segs) (n : Nat) :
    ∀ k, (∀ p ∈ missing n k segs, i ≤ p ∧ l[p - i]? = some 0x7B) ∧ (missing n k segs).Pairwise (· < ·) := by
  have shift : ∀ {i j k : Nat} {l l' : List Nat} {ps : List Nat}, (∀ p ∈ ps, j ≤ p ∧ l'[p - j]? = some 0x7B) → i ≤ j →
      l.drop (j - i) = l' → ∀ p ∈ ps, i ≤ p ∧ l[p - i]? = some 0x7B := by
    intro i j k l l' ps h hij hl p hp
    obtain ⟨h1, h2⟩ := h p hp
    refine ⟨by omega, ?_⟩
    rw [← hl, List.getElem?_drop] at h2
    have : j - i + (p - j) = p - i := by omega
    rw [← this]; exact h2
  have close : ∀ l : List Nat, l.drop (l.length - (afterClose l).length) = afterClose l := by
    intro l
    have hsuf : afterClose l <:+ l := (List.tail_suffix _).trans (List.dropWhile_suffix _)
    obtain ⟨pre, hp⟩ := hsuf
    generalize hc : afterClose l = c at hp
    rw [← hp]
    simp
  induction h with
  | done => intro k; simp [missing]
  | @char i c l segs hc _ ih =>
    intro k
    simp only [missing]
    exact ⟨shift (k := k) (ih k).1 (by omega) (by rw [Nat.add_sub_cancel_left]; rfl), (ih k).2⟩
  | @brace i l segs _ ih =>
    intro k
    simp only [missing]
    exact ⟨shift (k := k) (ih k).1 (by omega) (by rw [Nat.add_sub_cancel_left]; rfl), (ih k).2⟩
  | @comment i l segs _ ih =>
    intro k
    simp only [missing]
    have ha := afterClose_length l
    refine ⟨shift (k := k) (ih k).1 (by omega) ?_, (ih k).2⟩
    have e : i + (l.length + 2 - (afterClose l).length) - i = 2 + (l.length - (afterClose l).length) := by omega
    rw [e, ← List.drop_drop]
    exact close l
  | @positional i ds l segs h0 hd hl _ ih =>
    intro k
    simp only [missing]
    have ha := afterClose_length l
    have hdr : (0x7B :: (ds ++ l)).drop (i + (1 + ds.length + l.length - (afterClose l).length) - i) = afterClose l := by
      have e : i + (1 + ds.length + l.length - (afterClose l).length) - i =
        1 + (ds.length + (l.length - (afterClose l).length)) := by omega
      rw [e, ← List.drop_drop, List.drop_one, List.tail_cons, ← List.drop_drop, List.drop_left']
      · exact close l
      · rfl
    have hsh := shift (k := k) (ih k).1 (by omega) hdr
    split_ifs
    · simp only [List.nil_append]; exact ⟨hsh, (ih k).2⟩
    · refine ⟨fun p hp => ?_, List.pairwise_append.2 ⟨by simp, (ih k).2, fun a ha' b hb => ?_⟩⟩
      · rcases List.mem_append.1 hp with g | g
        · rw [List.mem_singleton] at g; subst g; simp
        · exact hsh p g
      · rw [List.mem_singleton] at ha'
        subst ha'
        have := ((ih k).1 b hb).1
        have : 1 ≤ ds.length := by cases ds with | nil => exact absurd rfl h0 | cons _ _ => simp
        omega
  | @next i l segs hh _ ih =>
    intro k
    simp only [missing]
    have ha := afterClose_length l
    have hdr : (0x7B :: l).drop (i + (1 + l.length - (afterClose l).length) - i) = afterClose l := by
      have e : i + (1 + l.length - (afterClose l).length) - i = 1 + (l.length - (afterClose l).length) := by omega
      rw [e, ← List.drop_drop]
      exact close l
    have hsh := shift (k := k) (ih (k + 1)).1 (by omega) hdr
    split_ifs
    · simp only [List.nil_append]; exact ⟨hsh, (ih (k + 1)).2⟩
    · refine ⟨fun p hp => ?_, List.pairwise_append.2 ⟨by simp, (ih (k + 1)).2, fun a ha' b hb => ?_⟩⟩
      · rcases List.mem_append.1 hp with g | g
        · rw [List.mem_singleton] at g; subst g; simp
        · exact hsh p g
      · rw [List.mem_singleton] at ha'
        subst ha'
        have := ((ih (k + 1)).1 b hb).1
        omega

/-- C41: the size that reserve_calc reserves for `.tr(str, args...)` is the number of code units that are printed. -/
theorem tr_size_exact (cs : Cs) (texts : List (List Nat)) (str : List Nat) (segs : List Seg) (h : Reads 0 str segs) :
    trStringSize (texts.map List.length) (cs.repl D).size str = some (expand texts cs.replacement 0 segs).length := by
  unfold trStringSize
  have hsz : (cs.repl D).size = cs.replacement.length := by
    cases cs with
    | utf e => cases e <;> rfl
    | sbc I => rfl
  rw [hsz]
  have := (trSize_spec texts cs.replacement (str.length + 1) str 0 0 segs 0 (by omega)).1 h
  rw [Nat.zero_min, Nat.zero_add] at this
  exact this

/-- C40, C41: strf::tr(str, args...) as an argument: it prints what the syntax calls for; the size it adds to the
premeasurements is the number of code units; and its width is that of the pieces of text (between the directives), of the
arguments, and one column for each argument that does not exist. All charsets and width calculators. -/
theorem tr_exact (L : Lawful D Rep) (cs : Cs) (c : Calc) (signed : Bool) (B : Int) {its : List (Item σ)} {ms : List Meaning}
    (h : AllMean τ D Rep wmax its ms) (hr : ∀ m ∈ ms, m.room ≤ wmax) {str : List Nat} {segs : List Seg}
    (hs : Reads 0 str segs) (hok : ∀ run, Piece.text run ∈ pieces 0 [] segs → c.Ok cs run) :
    (trItem D (c.on signed cs) (cs.repl D) str its).Means τ D Rep B
      (.tr (fun run => c.columns cs run * 65536) 65535 cs.replacement ms segs) :=
  tr_means L (c.measures signed cs) (cs.repl_lawful L) B h hr hs hok

/-! ## Examples -/

/-- the code units of an ASCII text -/
def txt (s : String) : List Nat := s.toList.map Char.toNat

/-- the examples of the documentation -/
example : Reads 0 (txt "{1 a person} likes {0 a food type}")
    (.at 1 0 :: ((txt " likes ").map .char ++ [.at 0 19])) ∧
    expand [txt "sandwich", txt "Paul"] [0xFFFD] 0 (.at 1 0 :: ((txt " likes ").map .char ++ [.at 0 19])) =
      txt "Paul likes sandwich" := by
  refine ⟨?_, by decide⟩
  refine .positional (ds := [0x31]) (l := txt " a person} likes {0 a food type}") (by decide) (by decide) (by decide) ?_
  iterate 7 refine .char (by decide) ?_
  refine .positional (ds := [0x30]) (l := txt " a food type}") (by decide) (by decide) (by decide) ?_
  exact .done

/-- an item for text in UTF-8 -/
def str8 (s : String) : Item (Dest.Maker Nat) :=
  stringItem (utf Dest.Maker.dest .utf8) (Calc.std.on false (.utf .utf8))
      (How.copy.content Dest.Maker.dest false true (.utf .utf8) (.utf .utf8)) .copy none none (txt s)

/-- strf::tr in UTF-8 -/
def tr8 (s : List Nat) (args : List (Item (Dest.Maker Nat))) : Item (Dest.Maker Nat) :=
  trItem Dest.Maker.dest (Calc.std.on false (.utf .utf8)) ((Cs.utf .utf8).repl Dest.Maker.dest) s args

example : printed (tr8 (txt "} {{x} {{{} {{{}}") [str8 "aaa", str8 "bbb"]) = some (txt "} {x} {aaa {bbb}") := by
  decide +kernel

example : printed (tr8 (txt "python{-the reptile} at {}, {}{7}") [str8 "here"]) =
    some (txt "python at here, " ++ [0xEF, 0xBF, 0xBD, 0xEF, 0xBF, 0xBD]) := by decide +kernel

/-- the positions reported -/
example : (trStringWrite Dest.Maker.dest ((Cs.utf .utf8).repl Dest.Maker.dest) [] (txt "a{}{-{}b{7")
    (Dest.Maker.init (List.replicate 64 0), [])).map (·.2) = some [1, 8] := by decide +kernel

/-- The theorem applies to strf::tr("{0} {}", 123, true) -/
example : ∃ ms segs, AllMean true Dest.Maker.dest (fun s t => Dest.Maker.Rep s t) wmax
      [intItem Dest.Maker.dest ⟨true, 4, 123⟩, boolItem Dest.Maker.dest .lower true] ms ∧ (∀ m ∈ ms, m.room ≤ wmax) ∧
    Reads 0 (txt "{0} {1}{}") segs ∧ (∀ run, Piece.text run ∈ pieces 0 [] segs → Calc.std.Ok (.utf .utf8) run) ∧
    (Meaning.tr (fun run => Calc.std.columns (.utf .utf8) run * 65536) 65535 (Cs.utf .utf8).replacement ms segs).text =
      txt "123 true123" ∧
    (Meaning.tr (fun run => Calc.std.columns (.utf .utf8) run * 65536) 65535 (Cs.utf .utf8).replacement ms segs).width =
      11 * 65536 := by
  refine ⟨_, [.at 0 0, .char 0x20, .at 1 4, .next 7],
    .cons (intItem_means Dest.Maker.lawful _ (fun c => [c]) .lower ⟨true, 4, 123⟩ (by decide))
      (.cons (boolItem_means Dest.Maker.lawful _ .lower true) .nil), ?_, ?_, ?_, ?_, ?_⟩
  · decide +kernel
  · refine .positional (ds := [0x30]) (l := txt "} {1}{}") (by decide) (by decide) (by decide) ?_
    refine .char (by decide) ?_
    refine .positional (ds := [0x31]) (l := txt "}{}") (by decide) (by decide) (by decide) ?_
    refine .next (l := txt "}") (by decide) ?_
    exact .done
  · intro run hrun
    simp [pieces] at hrun
    rcases hrun with rfl | rfl | rfl <;> exact ⟨by simp [Cs.Units, Utf.Units, Utf.Enc.bound], by simp⟩
  · decide +kernel
  · decide +kernel

/-! ## What fails -/

/-- The width of a tr-string is wrong if there is a join with alignment among the arguments, because the arguments are
premeasured with the default limit (join_width_wrong): `join_right(20)(tr("{}", join_right(10)(123)))` prints 27 columns
instead of 20. -/
theorem tr_join_width_wrong :
    printed (alignedJoin Dest.Maker.dest (utf Dest.Maker.dest .utf8) ⟨0x20, .right, 20 * 65536⟩
      [tr8 (txt "{}") [alignedJoin Dest.Maker.dest (utf Dest.Maker.dest .utf8) ⟨0x20, .right, 10 * 65536⟩
        [intItem Dest.Maker.dest ⟨true, 4, 123⟩]]]) = some (List.replicate 24 0x20 ++ txt "123") := by
  decide +kernel

/-- A grapheme cluster that a comment divides is measured as two: `join_right(3)(tr(u8"e{-}\u0301"))` prints one fill
character although the text takes one column. -/
theorem tr_cluster_width_wrong :
    printed (alignedJoin Dest.Maker.dest (utf Dest.Maker.dest .utf8) ⟨0x2E, .right, 3 * 65536⟩
      [tr8 (txt "e{-}" ++ [0xCC, 0x81]) []]) = some [0x2E, 0x65, 0xCC, 0x81] ∧
    Calc.std.columns (.utf .utf8) [0x65, 0xCC, 0x81] = 1 := by
  decide +kernel

/-- When size and width are calculated together the widths are added beyond the limit, and may overflow: two arguments of 20000
columns each, in a join of 5 columns. -/
theorem tr_width_overflow :
    ((tr8 (txt "{}{}") (List.replicate 2 (alignedIntItem Dest.Maker.dest (utf Dest.Maker.dest .utf8)
      ⟨0x20, .right, 20000 * 65536⟩ ⟨true, 4, 1⟩))).make ⟨some 0, some (.init (5 * 65536))⟩).isNone ∧
    ((tr8 (txt "{}{}") (List.replicate 2 (alignedIntItem Dest.Maker.dest (utf Dest.Maker.dest .utf8)
      ⟨0x20, .right, 20000 * 65536⟩ ⟨true, 4, 1⟩))).make ⟨none, some (.init (5 * 65536))⟩).isSome := by
  decide +kernel

end Strf.Print

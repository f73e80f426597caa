import Verif.Told.CallProps
import Verif.Program.Plain
import Verif.Dest.Finish
/-!
# C98: cases; what is told during strf::to_string…(…)
-/
namespace Strf.Told
open Strf.Dest (Dest Maker)
open Strf.Format
open Strf.Print (Item Meaning printPlain)
open Strf.Program
open Strf.Charset (Event)

variable {T : CharT} {K : CharT → CharsetArg} {sg : CharT → Bool} {k : Nat} {B : Int}

/-- C98: `strf::to_string…(args...)` returns the text of the call and meanwhile the notifier is told exactly of what there is to be told
of (each once or twice; of ill-formed sequences in their order, and of the characters that the charset lacks in theirs).
Missing: as in `call_told_partial`. -/
theorem call_to_string_told_partial (c : Call) (ms : List Meaning) (Ns : List (List Event)) (ht : AllTyped c.pack) (hch : CharsetsAre c.pack K)
    (hd : DenoteAll T K c.pack B c.args ms) (hN : AllHeard T K k c.pack c.args Ns) (junk : List Nat) (hj : junk.length = 64) :
    ∃ its s e, callItemsE Maker.dest T sg k c = some its ∧ printPlain (logged Maker.dest) c.eol its (Maker.init junk, []) = some (s, e) ∧
      (Maker.finishE true s).2 = some (c.text ms) ∧ Apart Ns.flatten e ∧ ∀ x, x ∈ e ↔ ∃ N ∈ Ns, x ∈ N := by
  obtain ⟨its, hi, hp, -⟩ := call_told_partial (sg := sg) (k := k) Maker.lawful c ms Ns ht hch hd hN
  obtain ⟨s, e, e1, r, ha, -⟩ := hp (Maker.init junk) [] [] (Maker.rep_init hj)
  have hg : Maker.dest.good s = true := r.2.2.1
  rw [List.nil_append] at e1 r
  exact ⟨its, s, e, hi, e1, Maker.finish_of_rep r, ha hg, fun x => ((ha hg).mem x).trans List.mem_flatten⟩

/-- C98: nothing is told during a call with no string that has such problems. -/
theorem call_to_string_untold_partial (c : Call) (ms : List Meaning) (ht : AllTyped c.pack) (hch : CharsetsAre c.pack K)
    (hd : DenoteAll T K c.pack B c.args ms) (Ns : List (List Event)) (hN : AllHeard T K k c.pack c.args Ns) (hq : ∀ N ∈ Ns, N = []) (junk : List Nat) (hj : junk.length = 64) :
    ∃ its s, callItemsE Maker.dest T sg k c = some its ∧ printPlain (logged Maker.dest) c.eol its (Maker.init junk, []) = some (s, []) := by
  obtain ⟨its, s, e, hi, e1, -, ha, -⟩ := call_to_string_told_partial (sg := sg) (k := k) c ms Ns ht hch hd hN junk hj
  rw [List.flatten_eq_nil_iff.2 hq] at ha
  rw [ha.quiet] at e1
  exact ⟨its, s, hi, e1⟩

/-- what `strf::to_string…(args...)` returns, and what is told meanwhile -/
def callTold (T : CharT) (k : Nat) (c : Call) : Option (Option (List Nat) × List Event) :=
  (callItemsE Maker.dest T (fun _ => false) k c).bind fun its =>
    (printPlain (logged Maker.dest) c.eol its (Maker.init (List.replicate 64 0), [])).map fun s => ((Maker.finishE true s.1).2, s.2)

/-- `to_string.with(n1, iso_8859_1<char>).with(n0).line(join(transcode(u8"a\u0100\xFF"), "x"), 5, join_right(6)(sani(u8"\xE2\x82")),
tr("{} {0}", sani("\xFF")))` -/
def badCall : Call where
  withs := [[.facet .notifier (.notifier (some 1)), .facet (.charset .char) (.charset .char ⟨.sbc 1, true⟩)], [.facet .notifier (.notifier (some 0))]]
  facets := []
  args := [.join [.str .char8 [.transcode none] [0x61, 0xC4, 0x80, 0xFF], .str .char [] [0x78]], .int intTy [] 5,
    .alignedJoin ⟨0x20, .right, 6 * 65536⟩ [.str .char8 [.sani none] [0xE2, 0x82]], .tr (Print.txt "{} {0}") [.str .char8 [.sani none] [0xFF]]]
  eol := true

/-- Two problems of the first string are told: where the ill-formed sequence begins, counted from the end of that string, and the character
that the charset lacks; and then that of the other, that is printed through the aligned join, and twice that of the argument of tr. Nothing of those that are copied. -/
example : callTold .char 0 badCall =
    some (some (Print.txt "a??x5     ?? ?\n"), [.invalid 1 1, .unsupported 0x100, .invalid 2 2, .invalid 1 1, .invalid 1 1]) := by decide +kernel

/-- The notifier that was given before is told nothing. -/
example : callTold .char 1 badCall = some (some (Print.txt "a??x5     ?? ?\n"), []) := by decide +kernel

/-- and if the bytes are written in the charset of the destination, nothing is told -/
example : callTold .char 0 { badCall with args := [.str .char [] [0xFF, 0xE2], .str .char [.transcode none] [0xFF]] } =
    some (some [0xFF, 0xE2, 0xFF, 0x0A], []) := by decide +kernel

/-- the charsets: ISO-8859-1 for char, and UTF -/
def K1 (U : CharT) : CharsetArg := if U = .char then ⟨.sbc 1, true⟩ else ⟨utfOf U, true⟩

theorem spared_latin {chk : Bool} {s : CsName} {ms : List Transcode.Mark} (h : ∀ m ∈ ms, ¬ Sbc.Defect (Transcode.sbcOf 1) m.char)
    (hs : s ≠ .utf .utf32) : Transcode.Spared chk ⟨false, false, false⟩ s (.sbc 1) ms :=
  .inr fun m hm => ⟨h m hm, fun _ e => absurd e hs⟩

/-- the theorems apply to that call -/
theorem badCall_told : ∃ ms, AllTyped badCall.pack ∧ CharsetsAre badCall.pack K1 ∧ DenoteAll .char K1 badCall.pack 0 badCall.args ms ∧
    AllHeard .char K1 0 badCall.pack badCall.args [[.unsupported 0x100, .invalid 1 1], [], [.invalid 2 2],
      [.invalid 1 1, .invalid 1 1]] := by
  have ht : AllTyped badCall.pack := by
    simp [badCall, Call.pack, AllTyped, Typed, FacetArg.cat, FacetArg.Typed, CsName.unitSize, CharT.size]
  have hw : CharsetsAre badCall.pack K1 := by
    intro tag U
    by_cases h : U = .char
    · subst h; exact .inl ⟨[], rfl⟩
    · refine .inr ⟨?_, by simp [K1, h, dflt, FacetArg.cat]⟩
      have : ¬ CharT.char = U := fun e => h e.symm
      simp [badCall, Call.pack, Facets.applicable, Facets.writtenAll, Facets.Fpe.written, FacetArg.cat, this]
  have np : ∀ {t}, Holds badCall.pack (.int t) (.numpunct 10 Numpunct.Facet.default) := .inr ⟨rfl, rfl⟩
  have lc : ∀ {t}, Holds badCall.pack (.int t) (.lettercase .lower) := .inr ⟨rfl, rfl⟩
  have wc : ∀ {t}, Holds badCall.pack t (.widthCalc .std) := .inr ⟨rfl, rfl⟩
  have nt : ∀ {t}, Holds badCall.pack t (.notifier (some 0)) := .inl ⟨[.notifier (some 1)], rfl⟩
  have i5 : ∃ m, Denotes .char K1 badCall.pack 0 (.int intTy [] 5) m := ⟨_, plain_int intTy 5 (by decide) .lower _ lc np⟩
  have s1 : ∀ B, ∃ m, Denotes .char K1 badCall.pack B (.str .char8 [.transcode none] [0x61, 0xC4, 0x80, 0xFF]) m := fun B =>
    ⟨_, .str .std _ 0 wc ⟨rfl, by decide, by decide, fun e => (by cases e), fun _ => rfl, fun p e => (by cases e), by decide, .inr (.inr (.inl (by decide))), rfl, fun e => (by cases e), by decide +kernel⟩ (by decide +kernel)⟩
  have s2 : ∀ B, ∃ m, Denotes .char K1 badCall.pack B (.str .char [] [0x78]) m := fun B =>
    ⟨_, .str .std _ 0 wc ⟨rfl, by decide, by decide, fun e => (by cases e), fun _ => rfl, fun p e => (by cases e), by decide, .inl rfl, rfl, fun e => (by cases e), by decide +kernel⟩ (by decide +kernel)⟩
  have reads : Tr.Reads 0 (Print.txt "{} {0}") [.next 0, .char 0x20, .at 0 3] := by
    refine .next (l := Print.txt "} {0}") (by decide) ?_
    refine .char (by decide) ?_
    exact .positional (ds := [0x30]) (l := Print.txt "}") (by decide) (by decide) (by decide) .done
  have all : ∃ ms, DenoteAll .char K1 badCall.pack 0 badCall.args ms := by
    refine denote_cons ⟨_, .join (denote_cons (s1 _) (denote_cons (s2 _) ⟨_, .nil⟩)).choose_spec⟩ ?_
    refine denote_cons i5 ?_
    refine denote_cons ⟨_, .alignedJoin 5 (by decide) (by decide) (.cons
      (.str .std _ 0 wc ⟨rfl, by decide, by decide, fun e => (by cases e), fun _ => rfl, fun p e => (by cases e), by decide, .inr (.inl rfl), rfl, fun e => (by cases e), by decide +kernel⟩ (by decide +kernel)) .nil) ?_ ?_ ?_ ?_⟩ ?_
    · decide +kernel
    · decide +kernel
    · decide +kernel
    · decide +kernel
    refine denote_cons ⟨_, .tr .std wc reads ?_ (.cons (.str .std _ 0 wc ⟨rfl, by decide, by decide, fun e => (by cases e), fun _ => rfl, fun p e => (by cases e), by decide, .inr (.inl rfl), rfl, fun e => (by cases e), by decide +kernel⟩ (by decide +kernel)) .nil) ?_⟩ ⟨_, .nil⟩
    · intro run hrun
      simp [Tr.pieces] at hrun
      rcases hrun with rfl | rfl <;> exact ⟨by simp [K1, CsName.cs, Print.Cs.Units], by simp⟩
    · decide +kernel
  obtain ⟨ms, hd⟩ := all
  refine ⟨ms, ht, hw, hd, ?_⟩
  have m1 : Transcode.Marks false (.utf .utf8) [0x61, 0xC4, 0x80, 0xFF] [⟨0x61, 1, false⟩, ⟨0x100, 2, false⟩, ⟨0xFFFD, 1, true⟩] :=
    ⟨[.ch 0x61, .ch 0x100, .bad 1], by
      have h := Utf.parses_items (e := .utf8) (lax := false) [0x61, 0xC4, 0x80, 0xFF] (by decide)
      have e : Utf.items .utf8 false [0x61, 0xC4, 0x80, 0xFF] = [.ch 0x61, .ch 0x100, .bad 1] := by decide +kernel
      rwa [e] at h, rfl⟩
  have m2 : Transcode.Marks false (.utf .utf8) [0xE2, 0x82] [⟨0xFFFD, 2, true⟩] :=
    ⟨[.bad 2], by
      have h := Utf.parses_items (e := .utf8) (lax := false) [0xE2, 0x82] (by decide)
      have e : Utf.items .utf8 false [0xE2, 0x82] = [.bad 2] := by decide +kernel
      rwa [e] at h, rfl⟩
  have t1 : Heard .char K1 0 badCall.pack (.str .char8 [.transcode none] [0x61, 0xC4, 0x80, 0xFF]) [.unsupported 0x100, .invalid 1 1] := by
    have := Heard.transcoded (T := .char) (K := K1) (k := 0) (fp := badCall.pack) (S := .char8) (cs := [.transcode none]) (src := [0x61, 0xC4, 0x80, 0xFF])
      .std _ _ nt (.inr ⟨rfl, by decide⟩) wc rfl m1 (spared_latin (by intro m hm; simp only [List.mem_cons, List.not_mem_nil, or_false] at hm; rcases hm with rfl | rfl | rfl <;> simp [Sbc.Defect]) (by decide))
    exact this
  have t2 : Heard .char K1 0 badCall.pack (.str .char8 [.sani none] [0xE2, 0x82]) [.invalid 2 2] := by
    have := Heard.transcoded (T := .char) (K := K1) (k := 0) (fp := badCall.pack) (S := .char8) (cs := [.sani none]) (src := [0xE2, 0x82])
      .std _ _ nt (.inl rfl) wc rfl m2 (spared_latin (by intro m hm; simp only [List.mem_cons, List.not_mem_nil, or_false] at hm; rcases hm with rfl <;> simp [Sbc.Defect]) (by decide))
    exact this
  have t3 : Heard .char K1 0 badCall.pack (.str .char [] [0x78]) [] := .copied (by decide) (by unfold Transcodes; decide)
  have m4 : Transcode.Marks false (.utf .utf8) [0xFF] [⟨0xFFFD, 1, true⟩] :=
    ⟨[.bad 1], by
      have h := Utf.parses_items (e := .utf8) (lax := false) [0xFF] (by decide)
      have e : Utf.items .utf8 false [0xFF] = [.bad 1] := by decide +kernel
      rwa [e] at h, rfl⟩
  have t4 : Heard .char K1 0 badCall.pack (.str .char8 [.sani none] [0xFF]) [.invalid 1 1] := by
    have := Heard.transcoded (T := .char) (K := K1) (k := 0) (fp := badCall.pack) (S := .char8) (cs := [.sani none]) (src := [0xFF])
      .std _ _ nt (.inl rfl) wc rfl m4 (spared_latin (by intro m hm; simp only [List.mem_cons, List.not_mem_nil, or_false] at hm; rcases hm with rfl <;> simp [Sbc.Defect]) (by decide))
    exact this
  exact .cons (.join (.cons t1 (.cons t3 .nil))) (.cons .int (.cons (.alignedJoin (.cons t2 .nil)) (.cons (.tr reads (.cons t4 .nil)) .nil)))

/-- unsafe_transcode tells what the charset lacks -/
example : callTold .char 0 { badCall with args := [.str .char8 [.unchecked none] [0x61, 0xC4, 0x80], .str .char16 [.unchecked (some ⟨.utf .utf16, true⟩)] [0xE9, 0x20AC]] } =
    some (some [0x61, 0x3F, 0xE9, 0x3F, 0x0A], [.unsupported 0x100, .unsupported 0x20AC]) := by decide +kernel

example : Heard .char K1 0 badCall.pack (.str .char8 [.unchecked none] [0x61, 0xC4, 0x80]) [.unsupported 0x100] := by
  have wc : ∀ {t}, Holds badCall.pack t (.widthCalc .std) := .inr ⟨rfl, rfl⟩
  have nt : ∀ {t}, Holds badCall.pack t (.notifier (some 0)) := .inl ⟨[.notifier (some 1)], rfl⟩
  have m1 : Transcode.Marks false (.utf .utf8) [0x61, 0xC4, 0x80] [⟨0x61, 1, false⟩, ⟨0x100, 2, false⟩] :=
    ⟨[.ch 0x61, .ch 0x100], by
      have h := Utf.parses_items (e := .utf8) (lax := false) [0x61, 0xC4, 0x80] (by decide)
      have e : Utf.items .utf8 false [0x61, 0xC4, 0x80] = [.ch 0x61, .ch 0x100] := by decide +kernel
      rwa [e] at h, rfl⟩
  exact Heard.unchecked (T := .char) (K := K1) (k := 0) (fp := badCall.pack) (S := .char8) (cs := [.unchecked none]) (src := [0x61, 0xC4, 0x80])
    .std _ _ nt rfl wc rfl m1 (by decide) (spared_latin (by intro m hm; simp only [List.mem_cons, List.not_mem_nil, or_false] at hm; rcases hm with rfl | rfl <;> simp [Sbc.Defect]) (by decide))

end Strf.Told

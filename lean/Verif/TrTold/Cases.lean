import Verif.TrTold.TrCall
import Verif.Program.Plain
import Verif.Dest.Finish
/-!
# C99: cases; what is told during strf::to_string…(…)
-/
namespace Strf.TrTold
open Strf.Dest (Dest Maker)
open Strf.Format
open Strf.Print (Meaning printPlain)
open Strf.Program
open Strf.Tr (Reads Seg)
open Strf.Told

variable {T : CharT} {K : CharT → CharsetArg} {sg : CharT → Bool} {k : Nat} {B : Int}

/-- C99: `strf::to_string…(args...)` returns the text of the call and meanwhile the notifier is told exactly of what there is to be told of.
Missing: what C73 lacks. -/
theorem call_to_string_noted_partial (c : Call) (ms : List Meaning) (Ns : List (List Note)) (ht : AllTyped c.pack) (hch : CharsetsAre c.pack K)
    (hd : DenoteAll T K c.pack B c.args ms) (hN : AllNoted T k c.pack c.args Ns) (junk : List Nat) (hj : junk.length = 64) :
    ∃ its s e, callItemsN Maker.dest T sg k c = some its ∧ printPlain (logged Maker.dest) c.eol its (Maker.init junk, []) = some (s, e) ∧
      (Maker.finishE true s).2 = some (c.text ms) ∧ Ns.flatten.Perm e := by
  obtain ⟨its, hi, hp, -⟩ := call_noted_partial (sg := sg) (k := k) Maker.lawful c ms Ns ht hch hd hN
  obtain ⟨s, e, e1, r, ha, -⟩ := hp (Maker.init junk) [] [] (Maker.rep_init hj)
  have hg : Maker.dest.good s = true := r.2.2.1
  rw [List.nil_append] at e1 r
  exact ⟨its, s, e, hi, e1, Maker.finish_of_rep r, ha hg⟩

/-- what `strf::to_string…(args...)` returns, and what is told meanwhile -/
def callNoted (T : CharT) (k : Nat) (c : Call) : Option (Option (List Nat) × List Note) :=
  (callItemsN Maker.dest T (fun _ => false) k c).bind fun its =>
    (printPlain (logged Maker.dest) c.eol its (Maker.init (List.replicate 64 0), [])).map fun s => ((Maker.finishE true s.1).2, s.2)

/-- what `strf::to_string…tr(str, args...)` returns, and what is told meanwhile -/
def trCallNoted (T : CharT) (k : Nat) (c : TrCall) : Option (Option (List Nat) × List Note) :=
  (trPrintN Maker.dest T (fun _ => false) k c (Maker.init (List.replicate 64 0), [])).map fun s => ((Maker.finishE true s.1).2, s.2)

/-- `to_string.with(n0)(tr("{0}{5} {}", tr("{}!{}", 5)), join(tr("{}")), strf::with(n1)(tr("{}")))` -/
def holedCall : Call where
  withs := [[.facet .trNotifier (.trNotifier (some 0))]]
  facets := []
  args := [.tr (Print.txt "{0}{5} {}") [.tr (Print.txt "{}!{}") [.int intTy [] 5]], .join [.tr (Print.txt "{}") []],
    .inner [.facet .trNotifier (.trNotifier (some 1))] [.tr (Print.txt "{}") []]]
  eol := false

/-- three missing arguments are told of to the first notifier, one of them twice; and one to the other, which is in force for the last
argument only. (`?` stands for the replacement character in ASCII.) -/
example : callNoted .char 0 { holedCall with facets := [.facet (.charset .char) (.charset .char ⟨.sbc 0, true⟩)] } =
      some (some (Print.txt "5!?? 5!???"), [⟨Print.txt "{}!{}", 3⟩, ⟨Print.txt "{}!{}", 3⟩, ⟨Print.txt "{0}{5} {}", 3⟩, ⟨Print.txt "{}", 0⟩]) ∧
    callNoted .char 1 { holedCall with facets := [.facet (.charset .char) (.charset .char ⟨.sbc 0, true⟩)] } =
      some (some (Print.txt "5!?? 5!???"), [⟨Print.txt "{}", 0⟩]) := by decide +kernel

/-- `….tr("{1}{3}", args...)` -/
example : (trCallNoted .char 0 { holedCall with str := Print.txt "{1}{3}" }).map (·.2) = some [⟨Print.txt "{}", 0⟩, ⟨Print.txt "{1}{3}", 3⟩] := by
  decide +kernel

/-- the theorems apply to that call -/
theorem holedCall_noted : ∃ ms, AllTyped holedCall.pack ∧ CharsetsAre holedCall.pack (fun U => ⟨utfOf U, true⟩) ∧
    DenoteAll .char (fun U => ⟨utfOf U, true⟩) holedCall.pack 0 holedCall.args ms ∧
    AllNoted .char 0 holedCall.pack holedCall.args
      [[⟨Print.txt "{}!{}", 3⟩, ⟨Print.txt "{}!{}", 3⟩, ⟨Print.txt "{0}{5} {}", 3⟩], [⟨Print.txt "{}", 0⟩], []] := by
  have ht : AllTyped holedCall.pack := by
    simp [holedCall, Call.pack, AllTyped, Typed, FacetArg.cat, FacetArg.Typed]
  have hw : CharsetsAre holedCall.pack (fun U => ⟨utfOf U, true⟩) := fun tag U => .inr ⟨rfl, rfl⟩
  have np : ∀ {t}, Holds holedCall.pack (.int t) (.numpunct 10 Numpunct.Facet.default) := .inr ⟨rfl, rfl⟩
  have lc : ∀ {t}, Holds holedCall.pack (.int t) (.lettercase .lower) := .inr ⟨rfl, rfl⟩
  have wc : ∀ {t}, Holds holedCall.pack t (.widthCalc .std) := .inr ⟨rfl, rfl⟩
  have nt : ∀ {t}, Holds holedCall.pack t (.trNotifier (some 0)) := .inl ⟨[], rfl⟩
  have r1 : Reads 0 (Print.txt "{0}{5} {}") [.at 0 0, .at 5 3, .char 0x20, .next 7] := by
    refine .positional (ds := [0x30]) (l := Print.txt "}{5} {}") (by decide) (by decide) (by decide) ?_
    refine .positional (ds := [0x35]) (l := Print.txt "} {}") (by decide) (by decide) (by decide) ?_
    refine .char (by decide) ?_
    exact .next (l := Print.txt "}") (by decide) .done
  have r2 : Reads 0 (Print.txt "{}!{}") [.next 0, .char 0x21, .next 3] := by
    refine .next (l := Print.txt "}!{}") (by decide) ?_
    refine .char (by decide) ?_
    exact .next (l := Print.txt "}") (by decide) .done
  have r3 : Reads 0 (Print.txt "{}") [.next 0] := .next (l := Print.txt "}") (by decide) .done
  have hi : AllTyped ([Facets.Fpe.facet Cat.trNotifier (FacetArg.trNotifier (some 1))] : Pack) := by
    simp [AllTyped, Typed, FacetArg.cat, FacetArg.Typed]
  have all : ∃ ms, DenoteAll .char (fun U => ⟨utfOf U, true⟩) holedCall.pack 0 holedCall.args ms := by
    refine denote_cons ⟨_, .tr .std wc r1 ?_ (.cons (.tr .std wc r2 ?_ (.cons (plain_int intTy 5 (by decide) .lower _ lc np) .nil) ?_) .nil) ?_⟩ ?_
    · intro run hrun
      simp [Tr.pieces] at hrun
      rcases hrun with rfl | rfl <;> exact ⟨by simp [utfOf, CsName.cs, Print.Cs.Units, Utf.Units, Utf.Enc.bound], by simp⟩
    · intro run hrun
      simp [Tr.pieces] at hrun
      rcases hrun with rfl | rfl <;> exact ⟨by simp [utfOf, CsName.cs, Print.Cs.Units, Utf.Units, Utf.Enc.bound], by simp⟩
    · decide +kernel
    · decide +kernel
    have e3 : ∀ {fp : Pack} {B}, Holds fp (.tr .char) (.widthCalc .std) → ∃ m, Denotes .char (fun U => ⟨utfOf U, true⟩) fp B (.tr (Print.txt "{}") []) m := by
      intro fp B h
      refine ⟨_, .tr .std h r3 ?_ .nil (by simp)⟩
      intro run hrun
      simp [Tr.pieces] at hrun
      subst hrun
      exact ⟨by simp [utfOf, CsName.cs, Print.Cs.Units, Utf.Units, Utf.Enc.bound], by simp⟩
    refine denote_cons ⟨_, .join (denote_cons (e3 wc) ⟨_, .nil⟩).choose_spec⟩ ?_
    exact denote_cons ⟨_, .inner hi (by decide) (denote_cons (e3 (.inr ⟨rfl, rfl⟩)) ⟨_, .nil⟩).choose_spec⟩ ⟨_, .nil⟩
  obtain ⟨ms, hd⟩ := all
  refine ⟨ms, ht, hw, hd, ?_⟩
  have n2 := Noted.tr (k := 0) nt r2 (.cons (.int (T := .char) (fp := holedCall.pack) (t := intTy) (cs := []) (x := 5)) .nil)
  have n1 := Noted.tr (k := 0) nt r1 (.cons n2 .nil)
  have n3 := Noted.tr (k := 0) (T := .char) (fp := holedCall.pack) nt r3 .nil
  have n4 := Noted.trOther (k := 0) (T := .char) (fp := holedCall.pack ++ [.facet .trNotifier (.trNotifier (some 1))]) (k' := some 1)
    (.inl ⟨[.trNotifier (some 0)], rfl⟩) (by decide) r3 .nil
  exact .cons n1 (.cons (.join (.cons n3 .nil)) (.cons (.inner (.cons n4 .nil)) .nil))

end Strf.TrTold

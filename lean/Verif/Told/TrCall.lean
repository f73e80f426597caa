import Verif.Told.Cases
import Verif.Told.GenericTr
import Verif.Program.TrCallProps
/-!
# C98: what is told during calls of `tr` and `trline`
-/
namespace Strf.Told
open Strf.Dest (Dest Lawful Maker)
open Strf.Format
open Strf.Print (Item Meaning printTr printTrCalc lineText endLine trStringWrite)
open Strf.Program (Call TrCall CharsetsAre DenoteAll AllTyped)
open Strf.Charset (Event)
open Strf.Tr (Reads Seg expand missing)

variable {σ : Type} {D : Dest Nat σ} {Rep : σ → List Nat → Prop} {T : CharT} {K : CharT → CharsetArg} {sg : CharT → Bool} {k : Nat} {B : Int}

/-- `destination…tr(str, args...)` with a notifier among the facets; see TrCall.print (Program/TrCallProps.lean) -/
def trPrintE (D : Dest Nat σ) (T : CharT) (sg : CharT → Bool) (k : Nat) (c : TrCall) (s : σ × Log) : Option ((σ × Log) × List Nat) :=
  (callItemsE D T sg k c.toCall).bind fun its => printTr (logged D) ((c.charset T).cs.repl (logged D)) c.eol c.str its s

/-- the same with reserve_calc; see TrCall.printCalc -/
def trPrintCalcE (D : Dest Nat σ) (T : CharT) (sg : CharT → Bool) (k : Nat) (c : TrCall) (create : Nat → σ × Log) :
    Option ((σ × Log) × List Nat) :=
  (callItemsE D T sg k c.toCall).bind fun its => printTrCalc (logged D) ((c.charset T).cs.repl (logged D)) c.eol c.str its create

/-- C98: During a call of `tr` the notifier is told of each argument at each reference to it, with or without reserve_calc.
Missing: as in call_told_partial. -/
theorem call_tr_told_partial (L : Lawful D Rep) (c : TrCall) (ms : List Meaning) (Ns : List (List Event)) (segs : List Seg)
    (ht : AllTyped c.pack) (hch : CharsetsAre c.pack K) (hd : DenoteAll T K c.pack B c.args ms) (hN : AllHeard T K k c.pack c.args Ns)
    (hr : Reads 0 c.str segs) (text : List Nat) (htext : text = lineText c.eol (expand (ms.map (·.text)) (K T).name.cs.replacement 0 segs)) :
    (∀ s l t, Rep s t → TrOutcome D Rep text (atReferences Ns 0 segs) (missing c.args.length 0 segs) s l t (trPrintE D T sg k c (s, l))) ∧
    ∀ create : Nat → σ, ∀ l t, Rep (create text.length) t →
      TrOutcome D Rep text (atReferences Ns 0 segs) (missing c.args.length 0 segs) (create text.length) l t
        (trPrintCalcE D T sg k c fun n => (create n, l)) := by
  obtain ⟨K', hch', hK'⟩ := Program.charsets_exist c.pack ht
  have hK : K' = K := (hch'.fn .void).symm.trans (hch.fn .void)
  subst hK
  obtain ⟨its0, its, hi, hm⟩ := args_told (sg := sg) (k := k) L hK' hd hch _ (Program.call_pack c.toCall) Ns hN
  have hi' : callItemsE D T sg k c.toCall = some its := hi
  have hKc : c.charset T = (K' T).name := by
    unfold TrCall.charset; rw [(hch.congr (Program.call_pack c.toCall)).fn]
  have := tr_items_told L c.eol (K' T).name hm hr text htext
  rw [denoteAll_length hd] at this
  unfold trPrintE trPrintCalcE
  rw [hi', hKc]
  exact this

/-- what `strf::to_string…tr(str, args...)` returns, and what is told meanwhile -/
def trCallTold (T : CharT) (c : TrCall) : Option (Option (List Nat) × List Event × List Nat) :=
  (trPrintE Maker.dest T (fun _ => false) 0 c (Maker.init (List.replicate 64 0), [])).map fun r => ((Maker.finishE true r.1.1).2, r.1.2, r.2)

/-- `….tr("{2}{} {2}{7}", args...)` with the arguments of badCall: what is to be told of the third is told twice, and what there is to tell
of the first after the first of them -/
example : trCallTold .char { badCall with str := Print.txt "{2}{} {2}{7}" } =
    some (some (Print.txt "     ?a??x      ??\n"), [.invalid 2 2, .invalid 1 1, .unsupported 0x100, .invalid 2 2], [9]) := by decide +kernel

example : ∃ ms text, (∀ s l t, Maker.Rep s t → TrOutcome Maker.dest (fun s t => Maker.Rep s t) text
      [.invalid 2 2, .unsupported 0x100, .invalid 1 1, .invalid 2 2] [9] s l t
      (trPrintE Maker.dest .char (fun _ => false) 0 { badCall with str := Print.txt "{2}{} {2}{7}" } (s, l))) ∧
    DenoteAll .char K1 badCall.pack 0 badCall.args ms := by
  obtain ⟨ms, ht, hch, hd, hN⟩ := badCall_told
  have hr : Reads 0 (Print.txt "{2}{} {2}{7}") [.at 2 0, .next 3, .char 0x20, .at 2 6, .at 7 9] := by
    refine .positional (ds := [0x32]) (l := Print.txt "}{} {2}{7}") (by decide) (by decide) (by decide) ?_
    refine .next (l := Print.txt "} {2}{7}") (by decide) ?_
    refine .char (by decide) ?_
    refine .positional (ds := [0x32]) (l := Print.txt "}{7}") (by decide) (by decide) (by decide) ?_
    exact .positional (ds := [0x37]) (l := Print.txt "}") (by decide) (by decide) (by decide) .done
  obtain ⟨h, -⟩ := call_tr_told_partial (sg := fun _ => false) Maker.lawful { badCall with str := Print.txt "{2}{} {2}{7}" } ms _ _ ht hch hd hN hr _ rfl
  exact ⟨ms, _, h, hd⟩

end Strf.Told

import Verif.TrTold.Props
import Verif.Told.GenericTr
/-!
# C99: what the error notifier of tr-strings is told during calls of `tr` and `trline`
-/
namespace Strf.TrTold
open Strf.Dest (Dest Lawful)
open Strf.Format
open Strf.Print (Meaning printTr printTrCalc lineText)
open Strf.Program (Call TrCall Holds CharsetsAre DenoteAll AllTyped theTrNotifier)
open Strf.Tr (Reads Seg expand missing)
open Strf.Told

variable {σ : Type} {D : Dest Nat σ} {Rep : σ → List Nat → Prop} {T : CharT} {K : CharT → CharsetArg} {sg : CharT → Bool} {k : Nat} {B : Int}

/-- reserve_policies.hpp 286–287, 364–365: `handle` is called, if `k` is the notifier that the facets have for no type in particular
(`get_facet<tr_error_notifier_c, void>`), at each missing argument. Simplification as in trItemN: the order. -/
def noteMissing (k : Nat) (c : TrCall) (r : (σ × List Note) × List Nat) : σ × List Note :=
  if theTrNotifier (Facets.callFacets (Facets.withAll [] c.withs) c.facets) .void = some k then (r.1.1, r.1.2 ++ r.2.map (Note.mk c.str))
  else r.1

/-- `destination…tr(str, args...)` with notifiers among the facets; see TrCall.print (Program/TrCallProps.lean) -/
def trPrintN (D : Dest Nat σ) (T : CharT) (sg : CharT → Bool) (k : Nat) (c : TrCall) (s : σ × List Note) : Option (σ × List Note) :=
  (callItemsN D T sg k c.toCall).bind fun its =>
    (printTr (logged D) ((c.charset T).cs.repl (logged D)) c.eol c.str its s).map (noteMissing k c)

/-- the same with reserve_calc; see TrCall.printCalc -/
def trPrintCalcN (D : Dest Nat σ) (T : CharT) (sg : CharT → Bool) (k : Nat) (c : TrCall) (create : Nat → σ × List Note) :
    Option (σ × List Note) :=
  (callItemsN D T sg k c.toCall).bind fun its =>
    (printTrCalc (logged D) ((c.charset T).cs.repl (logged D)) c.eol c.str its create).map (noteMissing k c)

theorem noted_of {c : TrCall} {v : Option Nat} (hv : Holds c.pack .void (.trNotifier v)) {text : List Nat} {N : List Note} {ps : List Nat} {s : σ}
    {l : List Note} {t : List Nat} {r : Option ((σ × List Note) × List Nat)} (h : TrOutcome D Rep text N ps s l t r) :
    Outcome D Rep text (N ++ if v = some k then ps.map (Note.mk c.str) else []) s l t (r.map (noteMissing k c)) := by
  obtain ⟨s', e, rfl, h2, h3, h4⟩ := h
  have hn := (hv.congr (Program.call_pack c.toCall)).trNotifier
  rw [Option.map_some]
  unfold noteMissing
  rw [hn]
  by_cases hk : v = some k
  · rw [if_pos hk, if_pos hk]
    exact ⟨s', e ++ ps.map (Note.mk c.str), by simp, h2, fun g => Telling.append (h3 g) (List.Perm.refl _), h4⟩
  · rw [if_neg hk, if_neg hk, List.append_nil]
    exact ⟨s', e, rfl, h2, h3, h4⟩

/-- C99: During a call of `tr` the notifier `k` is told of each argument at each reference to it, and, if it is the one in force (among the
facets that are not constrained to types), of the references of the tr-string of the call to missing arguments; with or without
reserve_calc.
Missing: what C73 lacks. -/
theorem call_tr_noted_partial (L : Lawful D Rep) (c : TrCall) (ms : List Meaning) (Ns : List (List Note)) (segs : List Seg) (v : Option Nat)
    (ht : AllTyped c.pack) (hch : CharsetsAre c.pack K) (hd : DenoteAll T K c.pack B c.args ms) (hN : AllNoted T k c.pack c.args Ns)
    (hv : Holds c.pack .void (.trNotifier v))
    (hr : Reads 0 c.str segs) (text : List Nat) (htext : text = lineText c.eol (expand (ms.map (·.text)) (K T).name.cs.replacement 0 segs))
    (N : List Note) (hall : N = atReferences Ns 0 segs ++ if v = some k then (missing c.args.length 0 segs).map (Note.mk c.str) else []) :
    (∀ s l t, Rep s t → Outcome D Rep text N s l t (trPrintN D T sg k c (s, l))) ∧
    ∀ create : Nat → σ, ∀ l t, Rep (create text.length) t →
      Outcome D Rep text N (create text.length) l t (trPrintCalcN D T sg k c fun n => (create n, l)) := by
  obtain ⟨K', hch', hK'⟩ := Program.charsets_exist c.pack ht
  have hK : K' = K := (hch'.fn .void).symm.trans (hch.fn .void)
  subst hK
  obtain ⟨its0, its, hi, hm⟩ := args_noted (sg := sg) (k := k) L hK' hd hch _ (Program.call_pack c.toCall) Ns hN
  have hi' : callItemsN D T sg k c.toCall = some its := hi
  have hKc : c.charset T = (K' T).name := by
    unfold TrCall.charset; rw [(hch.congr (Program.call_pack c.toCall)).fn]
  obtain ⟨h1, h2⟩ := tr_items_told L c.eol (K' T).name hm hr text htext
  rw [denoteAll_length hd] at h1 h2
  unfold trPrintN trPrintCalcN
  rw [hi', hKc]
  subst hall
  exact ⟨fun s l t h => noted_of hv (h1 s l t h), fun create l t h => noted_of hv (h2 create l t h)⟩

end Strf.TrTold

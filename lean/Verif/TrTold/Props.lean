import Verif.TrTold.Spec
import Verif.Told.Generic
/-!
# C99: what the error notifier of tr-strings is told during a call
-/
namespace Strf.TrTold
open Strf.Dest (Dest Lawful Prints After)
open Strf.Format
open Strf.Width
open Strf.Print (Item Meaning total WCalc Repl AllMean TextsOk trItem trStringWrite lineText printPlain printCalc)
open Strf.Program (Arg Pack Call Holds CharsetsAre Denotes DenoteAll AllTyped theCharset theCalc allConstrainable)
open Strf.Tr (Seg Reads missing pieces)
open Strf.Told
open Strf.Facets (writtenAll)

variable {σ : Type} {D : Dest Nat σ} {Rep : σ → List Nat → Prop} {T : CharT} {K : CharT → CharsetArg} {sg : CharT → Bool} {k : Nat} {B : Int}

/-- the printer of a tr-string with the notifier -/
theorem notes_hears {R : Repl (σ × List Note)} {repl : List Nat} {args : List (σ × List Note → Option (σ × List Note))}
    {texts : List (List Nat)} {Ns : List (List Note)} (L : Lawful D Rep) (HR : R.Lawful (logged D) (RepAny Rep) repl)
    (HQ : HearsPr D Rep R.write []) (HP : Print.ArgsPrint false (logged D) (RepAny Rep) args texts) (HA : ArgsTell D Rep args Ns)
    {str : List Nat} {segs : List Seg} (hs : Reads 0 str segs) :
    HearsPr D Rep (fun s => (trStringWrite (logged D) R args str (s, [])).map fun r => (r.1.1, r.1.2 ++ r.2.map (Note.mk str)))
      (Told.atReferences Ns 0 segs ++ (missing args.length 0 segs).map (Note.mk str)) := by
  intro s l t hr
  obtain ⟨s', e, ps, t', h1, h2, h3⟩ := trStringWrite_heard L HQ HA hs (st := ((s, l), [])) (t := t) hr
  obtain ⟨s2, w1, -, -⟩ := (Print.trWrite_spec (lawful_any L) HR HP str.length (str.length + 1) str 0 0 segs (by omega)).1 (by omega) hs
    ((s, l), []) t hr
  have w2 : trStringWrite (logged D) R args str ((s, l), []) = some (s2, [] ++ missing args.length 0 segs) := by
    unfold trStringWrite
    rw [Nat.zero_min] at w1
    exact w1
  rw [h1] at w2
  injection w2 with w2
  injection w2 with w3 w4
  rw [List.nil_append] at w4
  subst w4
  refine ⟨s', e ++ (missing args.length 0 segs).map (Note.mk str), t', ?_, h2, fun g => ⟨(h3 g).1, ?_⟩⟩
  · dsimp only at h1 ⊢
    rw [h1, ← List.append_assoc]; rfl
  · exact Telling.append (h3 g).2 (List.Perm.refl _)

theorem speaks_trN (L : Lawful D Rep) {W : WCalc} {slack : Int} {Ok : List Nat → Prop} {tw : List Nat → Int} {repl : List Nat}
    {R : Repl (σ × List Note)} {its0 its : List (Item (σ × List Note))} {ms : List Meaning} {Ns : List (List Note)}
    (HW : W.Measures slack Ok tw) (HR : R.Lawful (logged D) (RepAny Rep) repl) (HQ : HearsPr D Rep R.write [])
    (h : AllSpeak D Rep Width.wmax its0 its ms Ns) (hr : ∀ m ∈ ms, m.room ≤ Width.wmax) {str : List Nat} {segs : List Seg}
    (hs : Reads 0 str segs) (hok : TextsOk Ok (pieces 0 [] segs)) :
    Speaks D Rep B (trItemN D W R str its) (.tr tw slack repl ms segs)
      (Told.atReferences Ns 0 segs ++ (missing ms.length 0 segs).map (Note.mk str)) := by
  have hmean := Print.tr_means (lawful_any L) HW HR B h.means hr hs hok
  refine ⟨trItemN D W R str its0, ?_, ⟨hmean.1, hmean.2.1, hmean.2.2.1, ?_⟩, ?_⟩
  · intro p r e
    unfold trItemN at e ⊢
    dsimp only at e ⊢
    obtain ⟨rs, h2, e⟩ := Option.bind_eq_some_iff.1 e
    rw [h.makeEach_sub _ _ h2]; exact e
  · intro p hp
    obtain ⟨p', pr, e, hpr, hg⟩ := hmean.2.2.2 p hp
    unfold trItem at e
    dsimp only at e
    obtain ⟨rs, h2, e⟩ := Option.bind_eq_some_iff.1 e
    obtain ⟨q, h3, e⟩ := Option.map_eq_some_iff.1 e
    injection e with e1 e2
    subst e1 e2
    refine ⟨q, _, by unfold trItemN; dsimp only; rw [h2, Option.bind_some, h3]; rfl, ?_, hg⟩
    intro s t hrep
    obtain ⟨s', e3, e4, e5⟩ := hpr s t hrep
    obtain ⟨r, e6, rfl⟩ := Option.map_eq_some_iff.1 e3
    exact ⟨(r.1.1, r.1.2 ++ r.2.map (Note.mk str)), by dsimp only at e6 ⊢; rw [e6]; rfl, e4, e5⟩
  · intro p p' pr e
    unfold trItemN at e
    dsimp only at e
    obtain ⟨rs, h2, e⟩ := Option.bind_eq_some_iff.1 e
    obtain ⟨q, -, e⟩ := Option.map_eq_some_iff.1 e
    injection e with _ e; subst e
    obtain ⟨rs', h3, h4, h5, -, -⟩ := Print.makeEach_spec h.means hr p
    rw [h2] at h3
    injection h3 with h3
    subst h3
    have hlen : (rs.map fun r => r.2).length = ms.length := by rw [List.length_map, h5]
    rw [← hlen]
    exact notes_hears L HR HQ h4 (h.makeEach _ _ h2) hs

mutual
/-- C99: an argument -/
theorem arg_noted (L : Lawful D Rep) (hK : ∀ U, (K U).name.unitSize = U.size) : {fp : Pack} → {B : Int} → {arg : Arg} → {m : Meaning} →
    Denotes T K fp B arg m → CharsetsAre fp K → ∀ fp', writtenAll fp' = writtenAll fp → ∀ N, Noted T k fp arg N →
      ∃ it, itemN D T sg k fp' arg = some it ∧ Speaks D Rep B it m N
  | fp, B, _, _, .int lay lc np gs rep hl hlc hnp ok, hch, fp', e, N, hN => by
    cases hN; unfold itemN; exact leaf_told L hK (.int lay lc np gs rep hl hlc hnp ok) hch fp' e
  | fp, B, _, _, .float lay lc np np16 gs rep hl hlc hlc0 h10 h16 ok, hch, fp', e, N, hN => by
    cases hN; unfold itemN; exact leaf_told L hK (.float lay lc np np16 gs rep hl hlc hlc0 h10 h16 ok) hch fp' e
  | fp, B, _, _, .str wc x n hwc ok hn, hch, fp', e, N, hN => by
    cases hN; unfold itemN; exact leaf_told L hK (.str wc x n hwc ok hn) hch fp' e
  | fp, B, _, _, .rawChr wc hwc hS hu, hch, fp', e, N, hN => by
    cases hN; unfold itemN; exact leaf_told L hK (.rawChr wc hwc hS hu) hch fp' e
  | fp, B, _, _, .chr wc n hwc hS hu hc ha hn, hch, fp', e, N, hN => by
    cases hN; unfold itemN; exact leaf_told L hK (.chr wc n hwc hS hu hc ha hn) hch fp' e
  | fp, B, _, _, .rawBool lc hlc, hch, fp', e, N, hN => by
    cases hN; unfold itemN; exact leaf_told L hK (.rawBool lc hlc) hch fp' e
  | fp, B, _, _, .bool lay lc n hl hlc hn, hch, fp', e, N, hN => by
    cases hN; unfold itemN; exact leaf_told L hK (.bool lay lc n hl hlc hn) hch fp' e
  | fp, B, _, _, .ptr lay lc n hl hlc ha hn, hch, fp', e, N, hN => by
    cases hN; unfold itemN; exact leaf_told L hK (.ptr lay lc n hl hlc ha hn) hch fp' e
  | fp, B, _, _, .join h, hch, fp', e, N, hN => by
    cases hN with
    | join hN =>
      obtain ⟨its0, its, hi, hm⟩ := args_noted L hK h hch fp' e _ hN
      exact ⟨_, by unfold itemN; rw [hi]; rfl, speaks_join L hm⟩
  | fp, B, _, _, .alignedJoin n h0 h1 h h2 h3 h4 h5, hch, fp', e, N, hN => by
    cases hN with
    | alignedJoin hN =>
      obtain ⟨its0, its, hi, hm⟩ := args_noted L hK h hch fp' e _ hN
      refine ⟨_, by unfold itemN; rw [hi]; rfl, ?_⟩
      rw [(hch.congr e).fn, ← Program.enc_of (logged D)]
      exact speaks_alignedJoin L (fun l => Format.charset_lawful (lawful_at L l) _) (Format.charset_lawful (lawful_any L) _) _ n h0 h1 hm h2 h3 h4 h5
  | fp, B, _, _, .range h, hch, fp', e, N, hN => by
    cases hN with
    | range hN =>
      obtain ⟨its0, its, hi, hm⟩ := args_noted L hK h hch fp' e _ hN
      exact ⟨_, by unfold itemN; rw [hi]; rfl, speaks_range L hm⟩
  | fp, B, _, _, @Denotes.separatedRange _ _ _ _ fmt sep args ms wc hwc hu hf hlen h, hch, fp', e, N, hN => by
    cases hN with
    | separatedRange hN =>
      obtain ⟨its0, its, hi, hm⟩ := args_noted L hK h hch fp' e _ hN
      refine ⟨_, by unfold itemN; rw [hi]; rfl, ?_⟩
      dsimp only
      rw [(hch.congr e).fn, (hwc.congr e).calc]
      have := speaks_separated L (wc.measures (sg T) (K T).name.cs) (sep := sep) ⟨cs_units (hK T) hu, hf⟩ hm hlen
      cases fmt
      · exact this.1
      · exact this.2
  | fp, B, _, _, .tr wc hwc hr hok h hroom, hch, fp', e, N, hN => by
    cases hN with
    | tr hk hr' hN =>
      cases Print.reads_unique hr hr'
      obtain ⟨its0, its, hi, hm⟩ := args_noted L hK h hch fp' e _ hN
      refine ⟨_, by unfold itemN; rw [hi]; rfl, ?_⟩
      dsimp only
      rw [if_pos (hk.congr e).trNotifier, (hch.congr e).fn, (hwc.congr e).calc]
      rw [← denoteAll_length h]
      exact speaks_trN L (wc.measures (sg T) (K T).name.cs) ((K T).name.cs.repl_lawful (lawful_any L))
        (.quiet fun l => ⟨true, ((K T).name.cs.repl_lawful (lawful_at L l)).printsTight⟩) hm hroom hr hok
    | trOther hk hne hr' hN =>
      cases Print.reads_unique hr hr'
      obtain ⟨its0, its, hi, hm⟩ := args_noted L hK h hch fp' e _ hN
      refine ⟨_, by unfold itemN; rw [hi]; rfl, ?_⟩
      dsimp only
      rw [if_neg (by rw [(hk.congr e).trNotifier]; exact hne), (hch.congr e).fn, (hwc.congr e).calc]
      exact speaks_tr L (wc.measures (sg T) (K T).name.cs) ((K T).name.cs.repl_lawful (lawful_any L))
        (.quiet fun l => ⟨true, ((K T).name.cs.repl_lawful (lawful_at L l)).printsTight⟩) hm hroom hr hok
  | fp, B, _, _, @Denotes.inner _ _ _ _ fs args ms h1 h2 h, hch, fp', e, N, hN => by
    cases hN with
    | inner hN =>
      obtain ⟨its0, its, hi, hm⟩ := args_noted L hK h (hch.append h1 h2) (Facets.childFacets fp' fs)
        (by rw [Facets.writtenAll_append]; simp [Facets.childFacets, writtenAll, Facets.Fpe.written, e]) _ hN
      exact ⟨_, by unfold itemN; rw [if_pos h2, hi]; rfl, speaks_tuple L hm⟩
theorem args_noted (L : Lawful D Rep) (hK : ∀ U, (K U).name.unitSize = U.size) : {fp : Pack} → {B : Int} → {as : List Arg} → {ms : List Meaning} →
    DenoteAll T K fp B as ms → CharsetsAre fp K → ∀ fp', writtenAll fp' = writtenAll fp → ∀ Ns, AllNoted T k fp as Ns →
      ∃ its0 its, itemsN D T sg k fp' as = some its ∧ AllSpeak D Rep B its0 its ms Ns
  | _, _, _, _, .nil, _, _, _, N, hN => by cases hN; exact ⟨[], [], by unfold itemsN; rfl, .nil⟩
  | _, _, _, _, .cons h hs, hch, fp', e, N, hN => by
    cases hN with
    | cons h1 h2 =>
      obtain ⟨it, hi, it0, hsub, ht⟩ := arg_noted L hK h hch fp' e _ h1
      obtain ⟨its0, its, his, hms⟩ := args_noted L hK hs hch fp' e _ h2
      exact ⟨it0 :: its0, it :: its, by unfold itemsN; rw [hi, his]; rfl, .cons hsub ht hms⟩
end


/-- C99: During a call the notifier `k` of tr-strings is told of the references to missing arguments of the tr-strings among the arguments, also
in joins, ranges, nested facets, or tr-strings (of an argument of a tr-string at each reference to it), for which it is the notifier in
force; of each exactly once, with the tr-string and the position, and of nothing else; unless the destination fails. It does not matter
whether the size is calculated before (`reserve_calc`): nothing is told then. What is printed is the text of the call.
Missing: what C73 lacks. -/
theorem call_noted_partial (L : Lawful D Rep) (c : Call) (ms : List Meaning) (Ns : List (List Note)) (ht : AllTyped c.pack) (hch : CharsetsAre c.pack K)
    (hd : DenoteAll T K c.pack B c.args ms) (hN : AllNoted T k c.pack c.args Ns) :
    ∃ its, callItemsN D T sg k c = some its ∧
      (∀ s l t, Rep s t → Outcome D Rep (c.text ms) Ns.flatten s l t (printPlain (logged D) c.eol its (s, l))) ∧
      ∀ order : List Nat, order.Perm (List.range c.args.length) → ∀ create : Nat → σ, ∀ l t, Rep (create (c.text ms).length) t →
        Outcome D Rep (c.text ms) Ns.flatten (create (c.text ms).length) l t (printCalc (logged D) c.eol its order fun n => (create n, l)) := by
  obtain ⟨K', hch', hK'⟩ := Program.charsets_exist c.pack ht
  have hK : K' = K := (hch'.fn .void).symm.trans (hch.fn .void)
  subst hK
  obtain ⟨its0, its, hi, hm⟩ := args_noted (sg := sg) (k := k) L hK' hd hch _ (Program.call_pack c) _ hN
  exact ⟨its, hi, items_told L c.eol hm (denoteAll_length hd)⟩

end Strf.TrTold

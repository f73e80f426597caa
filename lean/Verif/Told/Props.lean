import Verif.Told.Strings
import Verif.Told.Generic
import Verif.Told.Tr
import Verif.Program.CallProps
/-!
# C98: what the transcoding error notifier is told during a call
-/
namespace Strf.Told
open Strf.Dest (Dest Lawful Prints After)
open Strf.Format
open Strf.IntPrinter (AlignFmt)
open Strf.Print (Item Cs Content How Charset Calc Meaning total FillCount ssizeMax Policy choose Comparison)
open Strf.Program (Arg Pack Call Holds CharsetsAre Denotes DenoteAll StrOk theCharset theCalc allConstrainable)
open Strf.Charset (Event OnceOrTwice)
open Strf.Transcode (Marks Spared notes Mark invalids unsupporteds)
open Strf.Facets (writtenAll)

variable {σ : Type} {D : Dest Nat σ} {Rep : σ → List Nat → Prop} {T : CharT} {K : CharT → CharsetArg} {sg : CharT → Bool} {k : Nat}

theorem compare_different {s d : CharsetArg} : (compareCharsets s d).same = false → s.name ≠ d.name := by
  intro h he
  unfold compareCharsets at h
  rw [he] at h
  simp only [if_true, decide_true] at h
  by_cases h1 : s.isStatic = true ∧ d.isStatic = true
  · rw [if_pos h1] at h; cases h
  · rw [if_neg h1] at h; cases h

/-- the printer chosen for a string that is transcoded -/
theorem how_transcodes {S : CharT} {cs : List StringCall} {wc : Calc} {v : StringVal} (hv : SStateOf cs v) (h : Transcodes K T S cs) :
    v.how ⟨K, wc⟩ S T = .transcode := by
  unfold StringVal.how
  rw [hv.charset, hv.policy]
  obtain ⟨_, p2, p3, _, _⟩ := Print.policy_choice (decide (S = T)) (compareCharsets (charsetOf (K S) cs) (K T))
  rcases h with h | ⟨h, hne⟩
  · rw [h]; exact p2
  · rw [h, p3]
    rw [if_neg]
    intro hs; exact hne (compare_same hs)

/-- and for one that is not -/
theorem how_copies {S : CharT} {cs : List StringCall} {wc : Calc} {v : StringVal} (hv : SStateOf cs v) (h : ¬ Transcodes K T S cs)
    (hu : policyOf cs ≠ .unchecked) : v.how ⟨K, wc⟩ S T = .copy ∨ v.how ⟨K, wc⟩ S T = .copyOther := by
  unfold StringVal.how
  rw [hv.charset, hv.policy]
  obtain ⟨p1, p2, p3, _, _⟩ := Print.policy_choice (decide (S = T)) (compareCharsets (charsetOf (K S) cs) (K T))
  have two : ∀ b : Bool, (if b = true then How.copy else How.copyOther) = How.copy ∨ (if b = true then How.copy else How.copyOther) = How.copyOther := by
    intro b; cases b <;> simp
  dsimp only
  cases hp : policyOf cs with
  | noTranscode => rw [p1]; exact two _
  | saniUnconditionally => exact absurd (.inl hp) h
  | unchecked => exact absurd hp hu
  | saniOnlyIfDifferent =>
    rw [p3]
    cases hs : (compareCharsets (charsetOf (K S) cs) (K T)).same with
    | true => rw [if_pos rfl]; exact two _
    | false => exact absurd (.inr ⟨hp, compare_different hs⟩) h

/-- and for one that is transcoded with the unsafe functions -/
theorem how_unchecked {S : CharT} {cs : List StringCall} {wc : Calc} {v : StringVal} (hv : SStateOf cs v) (h : policyOf cs = .unchecked) :
    v.how ⟨K, wc⟩ S T = .unchecked ∨ (charsetOf (K S) cs).name = (K T).name ∧ (v.how ⟨K, wc⟩ S T = .copy ∨ v.how ⟨K, wc⟩ S T = .copyOther) := by
  unfold StringVal.how
  rw [hv.charset, hv.policy]
  obtain ⟨_, _, _, p4, p5⟩ := Print.policy_choice (decide (S = T)) (compareCharsets (charsetOf (K S) cs) (K T))
  dsimp only
  rw [h]
  cases hs : (compareCharsets (charsetOf (K S) cs) (K T)).same with
  | false => exact .inl (p4 hs)
  | true =>
    rcases p5 hs with p | p
    · exact .inl p
    · refine .inr ⟨compare_same hs, ?_⟩
      rw [p]
      cases decide (S = T) <;> simp

/-- in the same charset there is nothing to tell of a well-formed string -/
theorem notes_same {n : CsName} : ∀ {x : List Nat} {ms : List Mark}, Transcode.Units n x → Marks false n x ms → (∀ m ∈ ms, m.bad = false) →
    ∀ left, notes n left ms = [] := by
  intro x ms hu hm hb
  have hall : ∀ m ∈ ms, Transcode.supported n m.char = true := by
    intro m hmem
    cases n with
    | utf e => rfl
    | sbc i =>
      have hm' : ms = _ := hm
      rw [hm', List.mem_map] at hmem
      obtain ⟨b, hb1, hb2⟩ := hmem
      have hbad := hb m (by rw [hm', List.mem_map]; exact ⟨b, hb1, hb2⟩)
      by_cases hv : (Transcode.sbcOf i).isValid b = true
      · rw [if_pos hv] at hb2
        subst hb2
        have hlt : b < 256 := hu b hb1
        unfold Transcode.supported
        simp only [Bool.or_eq_true]
        left
        cases hbo : Sbc.byteOf (Transcode.sbcOf i) ((Transcode.sbcOf i).decode b) with
        | some _ => rfl
        | none => exact absurd rfl (Sbc.byteOf_none hbo b hlt hv)
      · rw [if_neg hv] at hb2
        subst hb2
        cases hbad
  clear hm hu
  induction ms with
  | nil => intro _; rfl
  | cons m ms ih =>
    intro left
    unfold notes Transcode.note
    rw [hb m (by simp), hall m (by simp), ih (fun m h => hb m (by simp [h])) (fun m h => hall m (by simp [h]))]
    rfl

theorem units_of {n : CsName} {x : List Nat} (h : n.cs.Units x) : Transcode.Units n x := by
  cases n with
  | utf e => exact h
  | sbc i => exact h.2

/-- a string -/
theorem string_told (L : Lawful D Rep) (hK : ∀ U, (K U).name.unitSize = U.size) {fp : Pack} {B : Int} {S : CharT} {cs : List StringCall}
    {src : List Nat} {N : List Event} (wc : Calc) (x : List Nat) (n : Nat) (hwc : Holds fp (.string S) (.widthCalc wc))
    (ok : StrOk T K wc S cs src x) (hn : FillCount (stringAlign cs).width (Program.strWidth K wc cs S x) n) (hN : Heard T K k fp (.str S cs src) N)
    (hnot : ∀ k', Holds fp (.string S) (.notifier k') → k' = some k) (signed : Bool) :
    ∃ it, stringItemE D ⟨K, wc⟩ S T signed (stringChain cs) src = some it ∧ Speaks D Rep B it
      (stringMeaning (Program.enc T K) (stringAlign cs) (precisionOf cs).isSome n (Program.strText T K cs S x) (Program.strWidth K wc cs S x)) N := by
  have hv := string_chain_state cs
  have hcomp := ok.compiles
  generalize stringChain cs = v at *
  unfold Program.stringFacets at hcomp
  have hcs := hv.charset (K S)
  have hwidth := width_charset S T ⟨K, wc⟩ signed cs v hv hcomp ok.charset
  have hU : (charsetOf (K S) cs).name.cs.Units src := cs_units ok.given ok.units
  have hX : ∀ how : How, (loggedContent D S T signed (charsetOf (K S) cs) (K T) how).Lawful (logged D) (RepAny Rep)
      (how.Ok (charsetOf (K S) cs).name.cs (K T).name.cs) (how.text (charsetOf (K S) cs).name.cs (K T).name.cs) :=
    fun how => loggedContent_lawful L S T signed _ _ ok.given (hK T)
  obtain ⟨y, ⟨k, hk⟩, h1, hnone, htake, h2⟩ := stringItem_of (Format.charset_lawful (lawful_any L) (K T).name) wc (v.how ⟨K, wc⟩ S T) signed
    (charsetOf (K S) cs).name.cs (K T).name.cs (loggedContent D S T signed (charsetOf (K S) cs) (K T) (v.how ⟨K, wc⟩ S T)) (hX _) B v.align
    (by rw [hv.align]; exact ok.align) v.precision
    (by intro p e; rw [hv.precision] at e; exact ⟨ok.precision p e, fun g => by rw [ok.std g] at e; cases e⟩) src ⟨hU, ok.fast⟩
  have h1' := h1
  rw [hv.precision] at h1'
  have hxy := Program.kept_unique (c := wc) ⟨hU, ok.fast⟩ ok.std ok.kept h1'
  subst hxy
  have hUx : (charsetOf (K S) cs).name.cs.Units x := by rw [hk]; exact hU.take k
  have hwf' : v.policy = .unchecked → (v.charset.getD (K S)).name.cs.WellFormed x := by
    rw [hv.policy, hcs]; exact ok.wellFormed
  have ht := how_text S T ⟨K, wc⟩ v x hwf'
  have hok := how_ok S T ⟨K, wc⟩ (hK T) v x (by dsimp only; rw [hcs]; exact hUx) hwf'
  dsimp only at ht hok
  rw [hcs] at ht hok
  rw [hv.policy] at ht
  have hm := h2 hok (by rw [ht]; exact ok.size) n (by rw [hv.align]; exact hn)
  rw [ht, hv.align] at hm
  rw [Program.enc_of] at hm
  refine ⟨_, by unfold stringItemE; rw [if_pos hcomp], ?_⟩
  dsimp only at hwidth ⊢
  rw [hwidth, hcs]
  have hm' := hm
  rw [show v.precision.isSome = (precisionOf cs).isSome by rw [hv.precision]] at hm'
  refine ⟨_, fun _ _ e => e, hm', ?_⟩
  refine stringItem_hears (fun l => Format.charset_lawful (lawful_at L l) (K T).name) _ _ _ _ _ _ x _ hnone htake ?_
  cases hN with
  | other h3 h4 => exact absurd (hnot _ h3) h4
  | copied h3 h4 => exact hears_copied L S T signed _ _ (how_copies hv h4 h3) x
  | transcoded wc' z ms _ h3 h4 h5 h6 h7 =>
    have hww : wc' = wc := by have := (hwc.calc).symm.trans h4.calc; exact this.symm
    subst hww
    have hzx := Program.kept_unique (c := wc') ⟨hU, ok.fast⟩ ok.std ok.kept h5
    subst hzx
    have hh : v.how ⟨K, wc'⟩ S T = .transcode := how_transcodes hv h3
    rw [hh] at hok ⊢
    exact hears_transcoded L S T signed _ _ ok.given (hK T) x ms hok (units_of hok.1) h6 h7
  | unchecked wc' z ms _ h3 h4 h5 h6 h7 h8 =>
    have hww : wc' = wc := by have := (hwc.calc).symm.trans h4.calc; exact this.symm
    subst hww
    have hzx := Program.kept_unique (c := wc') ⟨hU, ok.fast⟩ ok.std ok.kept h5
    subst hzx
    rcases how_unchecked (K := K) (T := T) (wc := wc') hv h3 with hh | ⟨hname, hh⟩
    · rw [hh]
      exact hears_unchecked L S T signed _ _ ok.given (hK T) x ms (ok.wellFormed h3) (units_of hUx) h6 h8 h7
    · rw [← hname, notes_same (units_of hUx) h6 h7]
      exact hears_copied L S T signed _ _ hh x

mutual
/-- C98: an argument -/
theorem arg_told (L : Lawful D Rep) (hK : ∀ U, (K U).name.unitSize = U.size) : {fp : Pack} → {B : Int} → {arg : Arg} → {m : Meaning} →
    Denotes T K fp B arg m → CharsetsAre fp K → ∀ fp', writtenAll fp' = writtenAll fp → ∀ N, Heard T K k fp arg N →
      ∃ it, itemE D T sg k fp' arg = some it ∧ Speaks D Rep B it m N
  | fp, B, _, _, .int lay lc np gs rep hl hlc hnp ok, hch, fp', e, N, hN => by
    cases hN; unfold itemE; exact leaf_told L hK (.int lay lc np gs rep hl hlc hnp ok) hch fp' e
  | fp, B, _, _, .float lay lc np np16 gs rep hl hlc hlc0 h10 h16 ok, hch, fp', e, N, hN => by
    cases hN; unfold itemE; exact leaf_told L hK (.float lay lc np np16 gs rep hl hlc hlc0 h10 h16 ok) hch fp' e
  | fp, B, _, _, @Denotes.str _ _ _ _ S cs src wc x n hwc ok hn, hch, fp', e, N, hN => by
    unfold itemE
    by_cases hk : Program.theNotifier fp' (.string S) = some k
    · rw [if_pos hk, (hch.congr e).fn, (hwc.congr e).calc]
      exact string_told L hK wc x n hwc ok hn hN (fun k' h => by rw [← hk, (h.congr e).notifier]) _
    · rw [if_neg hk]
      have hN' : N = [] := by
        cases hN with
        | other => rfl
        | copied => rfl
        | transcoded _ _ _ h => exact absurd (h.congr e).notifier hk
        | unchecked _ _ _ h => exact absurd (h.congr e).notifier hk
      subst hN'
      exact leaf_told L hK (.str wc x n hwc ok hn) hch fp' e
  | fp, B, _, _, .rawChr wc hwc hS hu, hch, fp', e, N, hN => by
    cases hN; unfold itemE; exact leaf_told L hK (.rawChr wc hwc hS hu) hch fp' e
  | fp, B, _, _, .chr wc n hwc hS hu hc ha hn, hch, fp', e, N, hN => by
    cases hN; unfold itemE; exact leaf_told L hK (.chr wc n hwc hS hu hc ha hn) hch fp' e
  | fp, B, _, _, .rawBool lc hlc, hch, fp', e, N, hN => by
    cases hN; unfold itemE; exact leaf_told L hK (.rawBool lc hlc) hch fp' e
  | fp, B, _, _, .bool lay lc n hl hlc hn, hch, fp', e, N, hN => by
    cases hN; unfold itemE; exact leaf_told L hK (.bool lay lc n hl hlc hn) hch fp' e
  | fp, B, _, _, .ptr lay lc n hl hlc ha hn, hch, fp', e, N, hN => by
    cases hN; unfold itemE; exact leaf_told L hK (.ptr lay lc n hl hlc ha hn) hch fp' e
  | fp, B, _, _, .join h, hch, fp', e, N, hN => by
    cases hN with
    | join hN =>
      obtain ⟨its0, its, hi, hm⟩ := args_told L hK h hch fp' e _ hN
      exact ⟨_, by unfold itemE; rw [hi]; rfl, speaks_join L hm⟩
  | fp, B, _, _, .alignedJoin n h0 h1 h h2 h3 h4 h5, hch, fp', e, N, hN => by
    cases hN with
    | alignedJoin hN =>
      obtain ⟨its0, its, hi, hm⟩ := args_told L hK h hch fp' e _ hN
      refine ⟨_, by unfold itemE; rw [hi]; rfl, ?_⟩
      rw [(hch.congr e).fn, ← Program.enc_of (logged D)]
      exact speaks_alignedJoin L (fun l => Format.charset_lawful (lawful_at L l) _) (Format.charset_lawful (lawful_any L) _) _ n h0 h1 hm h2 h3 h4 h5
  | fp, B, _, _, .range h, hch, fp', e, N, hN => by
    cases hN with
    | range hN =>
      obtain ⟨its0, its, hi, hm⟩ := args_told L hK h hch fp' e _ hN
      exact ⟨_, by unfold itemE; rw [hi]; rfl, speaks_range L hm⟩
  | fp, B, _, _, @Denotes.separatedRange _ _ _ _ fmt sep args ms wc hwc hu hf hlen h, hch, fp', e, N, hN => by
    cases hN with
    | separatedRange hN =>
      obtain ⟨its0, its, hi, hm⟩ := args_told L hK h hch fp' e _ hN
      refine ⟨_, by unfold itemE; rw [hi]; rfl, ?_⟩
      dsimp only
      rw [(hch.congr e).fn, (hwc.congr e).calc]
      have := speaks_separated L (wc.measures (sg T) (K T).name.cs) (sep := sep) ⟨cs_units (hK T) hu, hf⟩ hm hlen
      cases fmt
      · exact this.1
      · exact this.2
  | fp, B, _, _, .tr wc hwc hr hok h hroom, hch, fp', e, N, hN => by
    cases hN with
    | tr hr' hN =>
      cases Print.reads_unique hr hr'
      obtain ⟨its0, its, hi, hm⟩ := args_told L hK h hch fp' e _ hN
      refine ⟨_, by unfold itemE; rw [hi]; rfl, ?_⟩
      dsimp only
      rw [(hch.congr e).fn, (hwc.congr e).calc]
      exact speaks_tr L (wc.measures (sg T) (K T).name.cs) ((K T).name.cs.repl_lawful (lawful_any L))
        (.quiet fun l => ⟨true, ((K T).name.cs.repl_lawful (lawful_at L l)).printsTight⟩) hm hroom hr hok
  | fp, B, _, _, @Denotes.inner _ _ _ _ fs args ms h1 h2 h, hch, fp', e, N, hN => by
    cases hN with
    | inner hN =>
      obtain ⟨its0, its, hi, hm⟩ := args_told L hK h (hch.append h1 h2) (Facets.childFacets fp' fs)
        (by rw [Facets.writtenAll_append]; simp [Facets.childFacets, writtenAll, Facets.Fpe.written, e]) _ hN
      exact ⟨_, by unfold itemE; rw [if_pos h2, hi]; rfl, speaks_tuple L hm⟩
theorem args_told (L : Lawful D Rep) (hK : ∀ U, (K U).name.unitSize = U.size) : {fp : Pack} → {B : Int} → {as : List Arg} → {ms : List Meaning} →
    DenoteAll T K fp B as ms → CharsetsAre fp K → ∀ fp', writtenAll fp' = writtenAll fp → ∀ Ns, AllHeard T K k fp as Ns →
      ∃ its0 its, itemsE D T sg k fp' as = some its ∧ AllSpeak D Rep B its0 its ms Ns
  | _, _, _, _, .nil, _, _, _, N, hN => by cases hN; exact ⟨[], [], by unfold itemsE; rfl, .nil⟩
  | _, _, _, _, .cons h hs, hch, fp', e, N, hN => by
    cases hN with
    | cons h1 h2 =>
      obtain ⟨it, hi, it0, hsub, ht⟩ := arg_told L hK h hch fp' e _ h1
      obtain ⟨its0, its, his, hms⟩ := args_told L hK hs hch fp' e _ h2
      exact ⟨it0 :: its0, it :: its, by unfold itemsE; rw [hi, his]; rfl, .cons hsub ht hms⟩
end

end Strf.Told

import Verif.Told.Props
/-!
# C98: what the transcoding error notifier is told during a call
-/
namespace Strf.Told
open Strf.Dest (Dest Lawful Prints After Maker)
open Strf.Format
open Strf.Print (Item Meaning AllMean total printPlain printCalc lineText makeIn inOrder endLine)
open Strf.Program (Arg Pack Call Holds CharsetsAre DenoteAll AllTyped)
open Strf.Charset (Event OnceOrTwice)
open Strf.Facets (writtenAll)

variable {σ : Type} {D : Dest Nat σ} {Rep : σ → List Nat → Prop} {T : CharT} {K : CharT → CharsetArg} {sg : CharT → Bool} {k : Nat} {B : Int}

/-- C98: During a call the notifier `k`, if it is the one in force (Heard.other), is told, in the order of the arguments, of the ill-formed sequences of the strings that are
transcoded (or of what the precision keeps of them) and of their characters that the charset of the destination lacks; of each once or
twice, and of nothing else; unless the destination fails. It does not matter whether the size is calculated before (printCalc: with
`reserve_calc`; `order` is any order of evaluation): nothing is told then. What is printed is the text of the call.
An argument of `strf::tr` is told of at each reference to it.
Missing: strings with characters that tables of single-byte charsets have wrong (C05). -/
theorem call_told_partial (L : Lawful D Rep) (c : Call) (ms : List Meaning) (Ns : List (List Event)) (ht : AllTyped c.pack) (hch : CharsetsAre c.pack K)
    (hd : DenoteAll T K c.pack B c.args ms) (hN : AllHeard T K k c.pack c.args Ns) :
    ∃ its, callItemsE D T sg k c = some its ∧
      (∀ s l t, Rep s t → Outcome D Rep (c.text ms) Ns.flatten s l t (printPlain (logged D) c.eol its (s, l))) ∧
      ∀ order : List Nat, order.Perm (List.range c.args.length) → ∀ create : Nat → σ, ∀ l t, Rep (create (c.text ms).length) t →
        Outcome D Rep (c.text ms) Ns.flatten (create (c.text ms).length) l t (printCalc (logged D) c.eol its order fun n => (create n, l)) := by
  obtain ⟨K', hch', hK'⟩ := Program.charsets_exist c.pack ht
  have hK : K' = K := (hch'.fn .void).symm.trans (hch.fn .void)
  subst hK
  obtain ⟨its0, its, hi, hm⟩ := args_told (sg := sg) (k := k) L hK' hd hch _ (Program.call_pack c) _ hN
  exact ⟨its, hi, items_told L c.eol hm (denoteAll_length hd)⟩

/-- nothing is told of a call that has nothing to be told of -/
theorem Apart.quiet {e : List Event} (h : Apart [] e) : e = [] := by
  have h1 : Transcode.invalids e = [] := by
    have := h.1
    simp only [Transcode.invalids, List.filter_nil] at this ⊢
    generalize hx : e.filter Transcode.isInvalid = x at *
    cases this; rfl
  have h2 : Transcode.unsupporteds e = [] := by
    have := h.2
    simp only [Transcode.unsupporteds, List.filter_nil] at this ⊢
    generalize hx : e.filter (fun e => !Transcode.isInvalid e) = x at *
    cases this; rfl
  cases e with
  | nil => rfl
  | cons a e =>
    unfold Transcode.invalids at h1
    unfold Transcode.unsupporteds at h2
    by_cases ha : Transcode.isInvalid a = true
    · rw [List.filter_cons_of_pos ha] at h1; cases h1
    · rw [List.filter_cons_of_pos (by simpa using ha)] at h2; cases h2

/-- and of everything that is to be told, it is told -/
theorem Apart.mem {N e : List Event} (h : Apart N e) (x : Event) : x ∈ e ↔ x ∈ N := by
  have key : ∀ {a b : List Event}, OnceOrTwice a b → (x ∈ b ↔ x ∈ a) := by
    intro a b h
    induction h with
    | nil => simp
    | once _ ih => simp [ih]
    | twice _ ih => simp [ih]
  have h1 := key h.1
  have h2 := key h.2
  unfold Transcode.invalids at h1
  unfold Transcode.unsupporteds at h2
  simp only [List.mem_filter] at h1 h2
  by_cases hx : Transcode.isInvalid x = true
  · simpa [hx] using h1
  · simpa [hx] using h2

end Strf.Told

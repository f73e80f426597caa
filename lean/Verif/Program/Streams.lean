import Verif.Program.TrCallProps
import Verif.Dest.Sharp
/-!
# C73, C78: calls to a streambuf or to strf::discarder
-/
namespace Strf.Dest.Writer
variable {α : Type}

/-- what is known after finish() when the stream takes nothing any more after a call in which it did not take all -/
theorem finishSb_of_quits (acc : World α) {s : Writer α} {t : List α} (r : RepQuits s t) :
    (finishSb acc s).1.file <+: t ∧ (finishSb acc s).2.1 = (finishSb acc s).1.file.length ∧ ((finishSb acc s).2.2 = true ↔ (finishSb acc s).1.file = t) := by
  obtain ⟨⟨k1, k2, k3⟩, h2, h3⟩ := r
  obtain ⟨buf, ptr, good, count, file, calls⟩ := s
  simp only at k1 k2 k3 h2 h3
  cases good with
  | false =>
    obtain ⟨p, q⟩ := h3 rfl
    refine ⟨p, k3, iff_of_false (by simp [finishSb]) fun h => ?_⟩
    have h : file = t := h
    rw [h] at q
    omega
  | true =>
    have ht := h2 rfl
    have hl : (buf.take ptr).length = ptr := by simp; omega
    obtain ⟨n, hn⟩ : ∃ n, n = min (acc calls file (buf.take ptr)) (buf.take ptr).length := ⟨_, rfl⟩
    have ef : finishSb acc ⟨buf, ptr, true, count, file, calls⟩ =
      (⟨buf, 0, false, count + n, file ++ (buf.take ptr).take n, calls + 1⟩, count + n, n == ptr) := by
      rw [hn]; rfl
    rw [ef]
    refine ⟨?_, by simp; omega, ?_⟩
    · rw [← ht]
      exact (List.prefix_append_right_inj file).mpr (List.take_prefix _ _)
    · constructor
      · intro h
        simp at h
        simp only
        rw [List.take_of_length_le (l := buf.take ptr) (by omega), ht]
      · intro h
        have := congrArg List.length h
        rw [← ht] at this
        simp at this
        simp
        omega

theorem repQuits_init {junk : List α} (hj : 64 ≤ junk.length) : RepQuits (init junk) [] :=
  ⟨⟨hj, by simp [init], rfl⟩, by simp [init], by simp [init]⟩

end Strf.Dest.Writer

namespace Strf.Program
open Strf.Format
open Strf.Print (Meaning printPlain)
open Strf.Dest (Writer World Discarder)
open Strf.Tr (Seg missing)

variable {T : CharT} {sg : CharT → Bool} {B : Int} {ms : List Meaning}

/-- C73, C06 (part): `strf::to(streambuf)…(args...)`, when the stream takes nothing any more after a call in which it did not take all it was given: it
receives a prefix of the text, and the result says how much, and whether it is all. Missing: other streams (`Dest.streambuf_gap_wrong`), of which
`call_to_streambuf_partial` says what is so. -/
theorem call_to_streambuf_prefix_partial {c : Call} (h : c.Means T B ms) (acc : World Nat) (hw : Writer.Quits acc) (junk : List Nat) (hj : 64 ≤ junk.length) :
    ∃ its s, c.items (Writer.streambuf acc) T sg = some its ∧ printPlain (Writer.streambuf acc) c.eol its (Writer.init junk) = some s ∧
      (Writer.finishSb acc s).1.file <+: c.text ms ∧ (Writer.finishSb acc s).2.1 = (Writer.finishSb acc s).1.file.length ∧
      ((Writer.finishSb acc s).2.2 = true ↔ (Writer.finishSb acc s).1.file = c.text ms) := by
  obtain ⟨its, hi, hm⟩ := call_exact_partial (τ := true) (sg := sg) (Writer.lawfulQuitsAll acc hw).lawful h
  obtain ⟨s, e, r, _⟩ := Print.printPlain_prints (Writer.lawfulQuitsAll acc hw).lawful c.eol hm _ [] (Writer.repQuits_init hj)
  exact ⟨its, s, hi, e, Writer.finishSb_of_quits acc (by rw [List.nil_append] at r; exact r)⟩

/-- C78: `strf::to(streambuf)….tr(str, args...)` and `.trline` -/
theorem tr_call_to_streambuf_partial {c : TrCall} {segs : List Seg} {text : List Nat} (h : c.Text T B segs ms text) (acc : World Nat)
    (junk : List Nat) (hj : 64 ≤ junk.length) :
    ∃ s, c.print (Writer.streambuf acc) T sg (Writer.init junk) = some (s, missing c.args.length 0 segs) ∧
      (Writer.finishSb acc s).2.1 = (Writer.finishSb acc s).1.file.length ∧
      ((Writer.finishSb acc s).1.file = text → (Writer.finishSb acc s).2.2 = true) ∧
      ((Writer.finishSb acc s).2.2 = true → (Writer.finishSb acc s).1.file = text) ∧
      (Writer.Quits acc → (Writer.finishSb acc s).1.file <+: text) := by
  obtain ⟨⟨s, e, r⟩, _⟩ := tr_call_exact_partial (sg := sg) (Writer.lawfulSb acc) h _ [] (Writer.repSb_init hj)
  obtain ⟨h1, h2, h3⟩ := Writer.finishSb_of_rep acc (by simpa using r : Writer.RepSb s text)
  refine ⟨s, e, h1, fun hf => ?_, h2, fun hw => ?_⟩
  · cases hb : (Writer.finishSb acc s).2.2 with
    | true => rfl
    | false => have := h3 hb; rw [hf] at this; omega
  · obtain ⟨⟨s', e', r'⟩, _⟩ := tr_call_exact_partial (sg := sg) (Writer.lawfulQuitsAll acc hw).lawful h _ [] (Writer.repQuits_init hj)
    rw [e] at e'
    cases e'
    exact (Writer.finishSb_of_quits acc (by simpa using r')).1

/-- C73, C54: `strf::discarder`, or another destination that keeps nothing: the call ends -/
theorem call_to_discarder_partial {c : Call} (h : c.Means T B ms) (garb : List Nat) (hg : garb.length = 64) :
    ∃ its s, c.items Discarder.dest T sg = some its ∧ printPlain Discarder.dest c.eol its (Discarder.init garb) = some s := by
  obtain ⟨its, hi, hm⟩ := call_exact_partial (τ := true) (sg := sg) Discarder.lawful h
  obtain ⟨s, e⟩ := Option.isSome_iff_exists.mp (Print.to_discarder_exact garb hg hm c.eol)
  exact ⟨its, s, hi, e⟩

/-- C78: the same for `tr` -/
theorem tr_call_to_discarder_partial {c : TrCall} {segs : List Seg} {text : List Nat} (h : c.Text T B segs ms text) (garb : List Nat) (hg : garb.length = 64) :
    ∃ s, c.print Discarder.dest T sg (Discarder.init garb) = some (s, missing c.args.length 0 segs) := by
  obtain ⟨⟨s, e, _⟩, _⟩ := tr_call_exact_partial (sg := sg) Discarder.lawful h (Discarder.init garb) [] ⟨hg, by simp [Discarder.init]⟩
  exact ⟨s, e⟩

/-- a stream that takes 5 characters and no more -/
def fiveOnly : World Nat := fun _ file _ => 5 - file.length

/-- the hypotheses are met, and the stream gets the first five characters -/
example : Writer.Quits fiveOnly ∧ (∃ ms, aCall.Means .char8 0 ms) ∧
    ((aCall.items (Writer.streambuf fiveOnly) .char8 (fun _ => false)).bind fun its =>
      (printPlain (Writer.streambuf fiveOnly) aCall.eol its (Writer.init (List.replicate 64 0))).map fun s =>
        ((Writer.finishSb fiveOnly s).1.file, (Writer.finishSb fiveOnly s).2)) = some (Print.txt "x = 1", 5, false) := by
  refine ⟨?_, ?_, by decide +kernel⟩
  · intro i f xs ys h
    unfold fiveOnly at *
    simp only [List.length_append, List.length_take]
    omega
  · obtain ⟨ms, h, _⟩ := aCall_means
    exact ⟨ms, h⟩

end Strf.Program

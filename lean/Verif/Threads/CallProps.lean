import Verif.Threads.Props
import Verif.Program.CallProps
import Verif.Program.Plain
/-!
# C88: whole calls while other threads write to the garbage buffer
-/
namespace Strf.Threads
open Strf.Dest (Arr Loc Dest Lawful)
open Strf.Program (Call)
open Strf.Format (CharT)
open Strf.Print (Meaning printPlain)
variable {α : Type}

/-- destination.hpp 280–294: a character array destination while other threads use the garbage buffer: before each of its operations the buffer contains something else -/
structure Noisy (α : Type) where
  s : Arr α
  noise : Nat → List α

/-- destination.hpp 280–294: what the others have written -/
def Noisy.stir (x : Noisy α) : Noisy α := ⟨(priv x.s).on (x.noise 0), fun n => x.noise (n + 1)⟩

/-- destination.hpp 296–391, 441–526 -/
abbrev Noisy.dest : Dest α (Noisy α) where
  space x := x.s.space
  good x := x.s.good
  poke x xs := (x.stir.s.poke xs).map fun s => ⟨s, x.stir.noise⟩
  recycle x := ⟨x.stir.s.recycle, x.stir.noise⟩
  doWrite x xs := (x.stir.s.doWrite xs).map fun s => ⟨s, x.stir.noise⟩

/-- as C02 -/
def Noisy.Rep (N cap : Nat) (x : Noisy α) (t : List α) : Prop := Arr.Rep N cap x.s t ∧ ∀ n, (x.noise n).length = 64

theorem rep_garbage {N cap : Nat} {s : Arr α} {t g : List α} (h : Arr.Rep N cap s t) (hg : g.length = 64) : Arr.Rep N cap ((priv s).on g) t := by
  rcases h with ⟨h1, h2, h3, h4, h5, h6, h7, h8⟩ | ⟨h1, h2, h3, h4, h5, h6, h7⟩
  · exact .inl ⟨h1, h2, h3, h4, h5, h6, hg, h8⟩
  · exact .inr ⟨h1, h2, h3, hg, h5, h6, h7⟩

theorem Noisy.stir_rep {N cap : Nat} {x : Noisy α} {t : List α} (h : Noisy.Rep N cap x t) : Noisy.Rep N cap x.stir t :=
  ⟨rep_garbage h.1 (h.2 0), fun n => h.2 (n + 1)⟩

/-- C88: The contract of destinations is kept, whatever the others do to the buffer. -/
theorem noisy_lawful (N cap : Nat) : Lawful (Noisy.dest (α := α)) (Noisy.Rep N cap) where
  poke x t xs h hx := by
    have h' := Noisy.stir_rep h
    obtain ⟨s', e, r, sp, g⟩ := (Arr.lawful N cap).poke x.stir.s t xs h'.1 hx
    refine ⟨⟨s', x.stir.noise⟩, ?_, ⟨r, h'.2⟩, sp, g⟩
    show (x.stir.s.poke xs).map _ = _
    rw [show x.stir.s.poke xs = some s' from e]; rfl
  recycle x t h hx := by
    have h' := Noisy.stir_rep h
    obtain ⟨r, sp, g⟩ := (Arr.lawful N cap).recycle x.stir.s t h'.1 hx
    exact ⟨⟨r, h'.2⟩, sp, g⟩
  doWrite x t xs h hx := by
    have h' := Noisy.stir_rep h
    obtain ⟨s', e, r, g⟩ := (Arr.lawful N cap).doWrite x.stir.s t xs h'.1 hx
    refine ⟨⟨s', x.stir.noise⟩, ?_, ⟨r, h'.2⟩, g⟩
    show (x.stir.s.doWrite xs).map _ = _
    rw [show x.stir.s.doWrite xs = some s' from e]; rfl
  bad x t xs h hg := ⟨(Arr.lawful N cap).bad x.s t xs h.1 hg, h.2⟩

variable {T : CharT} {sg : CharT → Bool} {B : Int} {c : Call} {ms : List Meaning}

/-- C88: strf::to(char_array)…(args...) while other threads write what they like to the garbage buffer: as without them (C73), the text is all there and terminated if
it leaves more than 64 elements free, and whenever the result says that it is not truncated; in any case a prefix of it is there. -/
theorem call_undisturbed_partial (h : c.Means T B ms) (arr garb : List Nat) (noise : Nat → List Nat) (hN : 1 ≤ arr.length) (hg : garb.length = 64)
    (hn : ∀ n, (noise n).length = 64) :
    ∃ its x, c.items Noisy.dest T sg = some its ∧ printPlain Noisy.dest c.eol its ⟨Arr.initCstr arr garb, noise⟩ = some x ∧
      x.s.arr.length = arr.length ∧ ((c.text ms).length + 64 < arr.length → x.s.good = true) ∧
      (x.s.good = true → ∃ s', Arr.finishCstr 0 x.stir.s = some (s', .user (c.text ms).length, false) ∧
        s'.arr.take ((c.text ms).length + 1) = c.text ms ++ [0]) ∧
      (x.s.good = false → ∃ k, k ≤ (c.text ms).length ∧ k < arr.length ∧ arr.length ≤ k + 64 ∧ x.s.arr.take k = (c.text ms).take k) := by
  obtain ⟨its, hi, hm⟩ := Program.call_exact_partial (τ := true) (sg := sg) (noisy_lawful arr.length (arr.length - 1)) h
  obtain ⟨x, e, r, _⟩ := Print.printPlain_prints (τ := true) (noisy_lawful _ _) c.eol hm ⟨Arr.initCstr arr garb, noise⟩ [] ⟨Arr.rep_initCstr arr garb hg, hn⟩
  rw [List.nil_append] at r
  have r0 : Noisy.Rep arr.length (arr.length - 1) x (c.text ms) := r
  have r1 := Noisy.stir_rep r0
  obtain ⟨f1, f2, f3, f4, f5⟩ := Arr.finishCstr_of_rep 0 r1.1 (by omega)
  refine ⟨its, x, hi, e, ?_, f4, fun hgood => ?_, fun hbad => ?_⟩
  · rcases r0.1 with r | r
    · exact r.2.2.2.2.2.1
    · exact r.2.2.2.2.1
  · have hs := f2.1 (.inl hgood)
    obtain ⟨⟨s', p, tr⟩, es⟩ := Option.isSome_iff_exists.mp hs
    obtain ⟨_, k, hp, _, _, ht, hk, htr⟩ := f5 s' p tr es
    have htr' : tr = false := by rw [htr]; show (!x.s.good) = false; rw [hgood]; rfl
    have := hk htr'
    subst this
    exact ⟨s', by rw [es, hp, htr'], by rw [ht]; simp⟩
  · rcases r0.1 with r | ⟨h1, _, h3, h4, h5, h6, k, c1, c2, c3, c4, c5⟩
    · rw [r.1] at hbad; cases hbad
    · exact ⟨k, c3, by omega, by omega, c4⟩

/-- the hypotheses of `call_undisturbed_partial` are met by a call with many kinds of arguments -/
example : ∃ ms, Program.aCall.Means .char8 0 ms ∧ (Program.aCall.text ms).length = 41 := by
  obtain ⟨ms, h, e⟩ := Program.aCall_means
  exact ⟨ms, h, by rw [e]; decide⟩

/-- The actions of `garbage_race_wrong` are those of `strf::to(array)(12345)` with an array of four `char`: it ends with the same array, the same garbage and the
same state. -/
theorem spilling_is_the_call :
    let c : Call := ⟨[], [], [.int Program.intTy [] 12345], false⟩
    let s0 := Arr.initCstr [7, 7, 7, 7] (List.replicate 64 9)
    (((c.items Arr.dest .char8 fun _ => false).bind fun its => printPlain Arr.dest false its s0).bind fun s => Arr.finishCstr 0 s).map
        (fun r => (r.1.arr, r.1.garb, r.1.ptr, r.1.end_, r.1.it, r.1.good)) =
      (alone script 7 spilling s0).map (fun r => (r.2.arr, r.2.garb, r.2.ptr, r.2.end_, r.2.it, r.2.good)) ∧
    (alone script 7 spilling s0).isSome := by
  decide +kernel

end Strf.Threads

import Verif.IntPrinter.Props
import Verif.Dest.Arrays
import Verif.Dest.Files
import Verif.Dest.Strings
/-
Exactly where decimal integers with a sign format (C30–C32) and binary integers with a one-unit separator (C28) store
past the end of the buffer.
-/
namespace Strf.Dest
variable {α : Type}

/-- A destination that has no memory after its buffer: storing more units than the buffer has room for is undefined. -/
def Strict {α σ : Type} (D : Dest α σ) : Prop := ∀ s xs, D.space s < xs.length → D.poke s xs = none

/-- All the destinations of the library are like that. -/
theorem strict_all :
    Strict (Maker.dest (α := α)) ∧ Strict (Appender.dest (α := α)) ∧ (∀ z, Strict (Sized.dest (α := α) z)) ∧
    (∀ acc, Strict (Writer.cfile (α := α) acc)) ∧ (∀ acc, Strict (Writer.streambuf (α := α) acc)) ∧
    Strict (Arr.dest (α := α)) := by
  refine ⟨?_, ?_, ?_, ?_, ?_, ?_⟩
  · intro s xs h
    simp only [Maker.poke, storeAt] at h ⊢
    rw [if_neg (by omega)]; rfl
  · intro s xs h
    simp only [Appender.poke, storeAt] at h ⊢
    rw [if_neg (by omega)]; rfl
  · intro z s xs h
    simp only [Sized.poke] at h ⊢
    rw [if_neg (by omega)]
  · intro acc s xs h
    simp only [Writer.poke, storeAt] at h ⊢
    rw [if_neg (by omega)]; rfl
  · intro acc s xs h
    simp only [Writer.poke, storeAt] at h ⊢
    rw [if_neg (by omega)]; rfl
  · intro s xs h
    simp only [Arr.poke] at h ⊢
    rw [if_neg (by omega)]

end Strf.Dest

namespace Strf.IntDigits
open Spec Strf.Numpunct Strf.Numpunct.Spec
open Strf.Dest (Dest Lawful Prints Strict)
variable {σ : Type} {D : Dest Nat σ} {Rep : σ → List Nat → Prop}

theorem binUnchecked_none (L : Lawful D Rep) (hD : Strict D) (v n x : Nat) (s : σ) (t : List Nat) (h : Rep s t)
    (hs : D.space s < n) : binUnchecked D v n x s = none := by
  induction n generalizing x s t with
  | zero => omega
  | succ n ih =>
    rw [binUnchecked]
    by_cases h0 : D.space s = 0
    · rw [hD s _ (by simp; omega)]; rfl
    · obtain ⟨s1, e1, r1, sp1, _⟩ := L.poke s t [maskChar v x] h (by simp; omega)
      rw [e1]
      exact ih _ s1 _ r1 (by rw [sp1]; simp; omega)

/-- C28, exactly: in base 2 with a one-unit separator the number is written if and only if the most significant group
fits in the space left; otherwise it stores past the end of the buffer. -/
theorem write_bin_little_sep_iff (L : Lawful D Rep) (hD : Strict D) (bytes v sep : Nat) (lc : Lettercase)
    (hn : Bytes bytes) (hv : v < 2 ^ (8 * bytes)) (gs : List Nat) (rep : Bool) (hg : Valid gs rep) (sepcount : Nat)
    (s : σ) (t : List Nat) (h : Rep s t) (g : Nat)
    (hh : (split gs rep (text 2 lc v).length).getLast? = some g) :
    (∃ s', writeIntLittle D 2 lc sep v (ctor2 (args gs rep)) (countDigits 2 bytes v) sepcount s = some s' ∧
      Rep s' (t ++ grouped [sep] (split gs rep (text 2 lc v).length).reverse (text 2 lc v))) ↔ g ≤ D.space s := by
  constructor
  · rintro ⟨s', e, _⟩
    by_contra hc
    rw [count_digits_exact 2 bytes v (by simp [Base]) hn hv] at e
    obtain ⟨d, ed, hl, _, _⟩ := binGroups_ok (τ := true) L lc [sep] (by simp) v gs rep hg
    rw [text_length, hl] at hh
    cases hh
    unfold writeIntLittle writeBinLittle binGroups at e
    rw [if_pos rfl, ed] at e
    dsimp only at e
    rw [binUnchecked_none L hD v _ _ s t h (by omega)] at e
    cases e
  · intro hs
    obtain ⟨s', e, r, _⟩ := write_bin_little_sep_partial L bytes v sep lc hn hv gs rep hg sepcount s t h g hh hs
    exact ⟨s', e, r⟩

/-- a string_maker whose buffer has one place left -/
example (s : Dest.Maker Nat) (t : List Nat) (h : Dest.Maker.Rep s t) (h1 : s.buf.length - s.ptr = 1) :
    ¬ ∃ s', writeIntLittle Dest.Maker.dest 2 .lower 44 13 (ctor2 (args [2] true)) (countDigits 2 4 13) 1 s = some s' ∧
      Dest.Maker.Rep s' (t ++ grouped [44] (split [2] true (text 2 .lower 13).length).reverse (text 2 .lower 13)) := by
  rw [write_bin_little_sep_iff Dest.Maker.lawful Dest.strict_all.1 4 13 44 .lower (by simp [Bytes]) (by decide) [2] true
    (by decide) 1 s t h 2 (by decide +kernel)]
  show ¬ 2 ≤ s.buf.length - s.ptr
  omega

end Strf.IntDigits

namespace Strf.IntPrinter
open Spec Strf.IntDigits Strf.IntDigits.Spec Strf.Numpunct Strf.Numpunct.Spec Strf.Print
open Strf.Dest (Dest Lawful Prints Strict)
variable {σ : Type} {D : Dest Nat σ} {Rep : σ → List Nat → Prop} {C : Charset σ}

/-- C30, exactly: `+dec(x)` and its like are printed if and only if the destination has room for the whole number, or
for nothing at all (it is then asked for more). Otherwise they store past the end of the buffer. -/
theorem plain_dec_iff (L : Lawful D Rep) (hD : Strict D) (HC : C.Lawful D Rep) (sign : Showsign) (showbase : Bool)
    (lc : Lettercase) (x : IntVal) (hx : x.Ok) :
    ∃ p, Plain.init 10 sign showbase x = some p ∧ ∀ s t, Rep s t →
      ((∃ s', p.print D 10 lc s = some s' ∧
          Rep s' (t ++ formatted C.encodeChar lc [] [] false ⟨10, 0, 0, sign, showbase⟩ .none x)) ↔
        (D.space s = 0 ∨
          (formatted C.encodeChar lc [] [] false ⟨10, 0, 0, sign, showbase⟩ .none x).length ≤ D.space s)) := by
  obtain ⟨p, hp, hw, _, hsz⟩ := plain_dec_partial L HC sign showbase lc x hx
  refine ⟨p, hp, ?_⟩
  have hpos : 0 < (formatted C.encodeChar lc [] [] false ⟨10, 0, 0, sign, showbase⟩ .none x).length := by
    rw [plain_formatted, List.length_append]
    have := (digits_length_le ⟨10, 0, 0, sign, showbase⟩ (by simp [Base]) x hx lc).1
    omega
  have hne : p.digcount + p.pfx ≠ 0 := by
    intro h0
    have h1 : p.digcount = 0 := by omega
    have h2 : p.pfx = 0 := by omega
    unfold Plain.pre at hsz
    rw [if_pos rfl, h1, h2] at hsz
    dsimp only at hsz
    simp at hsz
    rw [← hsz] at hpos
    simp at hpos
  have hle : (formatted C.encodeChar lc [] [] false ⟨10, 0, 0, sign, showbase⟩ .none x).length ≤ 64 := by
    rw [plain_formatted, List.length_append]
    have h1 : (digits lc ⟨10, 0, 0, sign, showbase⟩ x).length ≤ 22 := by
      unfold digits
      rw [text_length]
      have := len_small 10 _ (by simp) (magnitude_lt64 10 x hx)
      exact this
    have h2 : (leader C.encodeChar lc ⟨10, 0, 0, sign, showbase⟩ 0x20 x).length ≤ 1 := by
      unfold leader
      rw [if_pos rfl]
      have ha := HC.ascii 0x20 (by decide)
      split_ifs
      · simp
      · cases sign
        · simp
        · simp
        · simp [ha]
      · simp
    omega
  intro s t h
  have hpr : ∀ s, p.print D 10 lc s = pokeField D (Dest.ensure D s 1) ((if p.pfx ≠ 0 then 1 else 0) + p.digcount)
      ((if p.pfx ≠ 0 then [p.pfx] else []) ++ back 10 .lower p.uvalue) := by
    intro s
    unfold Plain.print
    rw [if_pos rfl, if_pos hne]
  by_cases h0 : D.space s = 0
  · refine ⟨fun _ => .inl h0, fun _ => ?_⟩
    obtain ⟨r1, r2, _⟩ := L.recycle s t h (by omega)
    obtain ⟨s', e, r, _⟩ := hw _ t r1 (by omega)
    refine ⟨s', ?_, r⟩
    rw [← e, hpr, hpr]
    congr 1
    unfold Dest.ensure
    rw [if_pos (by omega), if_neg (by omega)]
  · constructor
    · rintro ⟨s', e, _⟩
      right
      by_contra hc
      rw [hpr] at e
      unfold pokeField Dest.ensure at e
      rw [if_neg (by omega : ¬ D.space s < 1)] at e
      unfold Plain.pre at hsz
      rw [if_pos rfl] at hsz
      dsimp only at hsz
      by_cases hl : ((if p.pfx ≠ 0 then [p.pfx] else []) ++ back 10 .lower p.uvalue).length =
          (if p.pfx ≠ 0 then 1 else 0) + p.digcount
      · rw [if_pos hl, hD s _ (by rw [hl]; omega)] at e
        cases e
      · rw [if_neg hl] at e
        cases e
    · rintro (hk | hk)
      · exact absurd hk h0
      · obtain ⟨s', e, r, _⟩ := hw s t h hk
        exact ⟨s', e, r⟩

end Strf.IntPrinter

import Verif.Utf.Props
import Verif.Sbc.Props
/-
What the printers use of a charset facet (docs/ref_charset.adoc): encode_fill, encode_char, encoded_char_size and
validate; and that the UTF charsets and the single-byte charsets of strf provide it.
-/
namespace Strf.Print
open Strf.Dest (Dest Lawful Prints)

/-- The members of a charset facet that the integer printers and the alignment code call
(include/strf/detail/facets/charset.hpp 424–520: encode_fill_func, encode_char_func, encoded_char_size, validate_func).
`validate` is `none` for invalid_char_len. -/
structure Charset (σ : Type) where
  encodeFill : σ → Int → Nat → Option σ
  encodeChar : Nat → List Nat
  charSize : Nat → Nat
  validate : Nat → Option Nat

variable {σ : Type}

/-- What is expected of them. -/
structure Charset.Lawful (C : Charset σ) (D : Dest Nat σ) (Rep : σ → List Nat → Prop) : Prop where
  fillTight : ∀ (n : Int) (ch : Nat), 0 ≤ n →
    Prints true D Rep (fun s => C.encodeFill s n ch) (List.replicate n.toNat (C.encodeChar ch)).flatten
  size : ∀ ch, C.charSize ch = (C.encodeChar ch).length
  short : ∀ ch, 1 ≤ (C.encodeChar ch).length ∧ (C.encodeChar ch).length ≤ 4
  valid : ∀ ch n, C.validate ch = some n → n = (C.encodeChar ch).length
  ascii : ∀ ch, ch < 0x80 → C.encodeChar ch = [ch]
  asciiValid : ∀ ch, ch < 0x80 → C.validate ch = some 1

theorem Charset.Lawful.fill {C : Charset σ} {D : Dest Nat σ} {Rep : σ → List Nat → Prop} {τ : Bool} (H : C.Lawful D Rep) (n : Int) (ch : Nat)
    (hn : 0 ≤ n) : Prints τ D Rep (fun s => C.encodeFill s n ch) (List.replicate n.toNat (C.encodeChar ch)).flatten :=
  (H.fillTight n ch hn).any

/-- The UTF charsets, utf.hpp (Utf/ModelEncode.lean); −1 is `none`. -/
abbrev utf (D : Dest Nat σ) (e : Utf.Enc) : Charset σ where
  encodeFill s n ch := Utf.encodeFill D s n ch e
  encodeChar ch := Utf.encodeChar e ch
  charSize ch := Utf.encodedCharSize e ch
  validate ch := if Utf.validate e ch < 0 then none else some (Utf.validate e ch).toNat

/-- The single-byte charsets, single_byte_charsets.hpp (Sbc/Model.lean); encoded_char_size is 1 (l.2938–2941). A
negative count of fill characters, which no caller passes, is undefined behaviour. -/
abbrev sbc (D : Dest Nat σ) (I : Sbc.Impl) : Charset σ where
  encodeFill s n ch := if n < 0 then none else Sbc.encodeFill D I s n.toNat ch
  encodeChar ch := [Sbc.encodeChar I ch]
  charSize _ := 1
  validate ch := Sbc.validate I ch

variable {D : Dest Nat σ} {Rep : σ → List Nat → Prop}

theorem utf_lawful (L : Lawful D Rep) (e : Utf.Enc) : (utf D e).Lawful D Rep where
  fillTight n ch _ := Utf.encodeFill_prints L e n ch
  size ch := (Utf.encodeChar_length e ch).symm
  short ch := by
    dsimp only
    rw [Utf.encodeChar_length]
    cases e <;> simp only [Utf.encodedCharSize] <;> (try split_ifs) <;> omega
  valid ch n h := by
    dsimp only at h ⊢
    by_cases hs : Utf.Scalar false ch
    · obtain ⟨_, e2, e3, _⟩ := Utf.encode_char_exact e ch hs
      rw [e3] at h
      split_ifs at h
      rw [e2]
      simp at h
      exact h.symm
    · rw [(Utf.encode_char_invalid e ch hs).1] at h
      simp at h
  ascii ch h := by
    cases e <;> simp only [Utf.encodeChar]
    · rw [if_pos h, show Utf.tr8 ch = ch from Nat.mod_eq_of_lt (by omega)]
    · rw [if_pos (by omega), show Utf.tr16 ch = ch from Nat.mod_eq_of_lt (by omega)]
  asciiValid ch h := by
    have hs : Utf.Scalar false ch := ⟨by omega, .inr (fun g => by have := g.1; omega)⟩
    dsimp only
    rw [(Utf.encode_char_exact e ch hs).2.2.1]
    cases e <;> simp only [Utf.encodedCharSize] <;> (try split_ifs) <;> first | omega | rfl

theorem sbc_ascii : ∀ I ∈ Sbc.all, ∀ ch, ch < 0x80 → I.encode ch = ch := by
  refine Sbc.forall_all ?_ ?_ ?_ ?_ ?_ ?_ ?_ ?_ ?_ ?_ ?_ ?_ ?_ ?_ ?_ ?_ ?_ ?_ ?_ ?_ ?_ ?_ ?_ ?_ ?_ <;> decide +kernel

theorem sbc_lawful (L : Lawful D Rep) (I : Sbc.Impl) (hI : I ∈ Sbc.all) : (sbc D I).Lawful D Rep where
  fillTight n ch hn := by
    intro s t hr
    dsimp only
    rw [if_neg (by omega), Utf.flatten_replicate_single]
    unfold Sbc.encodeFill
    have e2 : (if I.encode ch ≥ 0x100 then 0x3F else I.encode ch) = Sbc.encodeChar I ch := by
      unfold Sbc.encodeChar; dsimp only; split_ifs <;> first | rfl | omega
    dsimp only
    rw [e2]
    rw [List.length_replicate]
    exact Sbc.fillLoop_prints L _ (n.toNat + 2) s t n.toNat hr (.inl (by omega))
  size _ := rfl
  short _ := by simp
  valid ch n h := by
    dsimp only at h ⊢
    unfold Sbc.validate at h
    split_ifs at h
    cases h; rfl
  ascii ch h := by
    dsimp only
    unfold Sbc.encodeChar
    rw [sbc_ascii I hI ch h]
    dsimp only
    rw [if_pos (by omega)]
  asciiValid ch h := by
    dsimp only
    unfold Sbc.validate
    rw [sbc_ascii I hI ch h, if_pos (by omega)]

end Strf.Print

import Verif.Utf.ModelEncode
import Verif.Utf.Bits
import Verif.Utf.UnsafeLemmas
import Verif.Dest.Lawful
namespace Strf.Utf
open Strf.Dest (Lawful Prints)

theorem and_shift (x m k : Nat) : (x &&& (m <<< k)) >>> k = (x >>> k) &&& m := by
  rw [Nat.shiftRight_and_distrib, Nat.shiftLeft_shiftRight]

theorem lead2' (x : Nat) (hx : x < 32) : tr8 (0xC0 ||| x) = 0xC0 + x := by interval_cases x <;> decide
theorem lead3' (x : Nat) (hx : x < 16) : tr8 (0xE0 ||| x) = 0xE0 + x := by interval_cases x <;> decide
theorem lead4' (x : Nat) (hx : x < 8) : tr8 (0xF0 ||| x) = 0xF0 + x := by interval_cases x <;> decide
theorem tail' (x : Nat) : tr8 (0x80 ||| (x &&& 0x3F)) = 0x80 + x % 64 := by
  rw [and3F]
  have : x % 64 < 64 := Nat.mod_lt _ (by decide)
  generalize x % 64 = y at this
  interval_cases y <;> decide

theorem bytes2_eq {c : Nat} (h : 0x80 ≤ c) (h' : c < 0x800) : bytes2 c = encode .utf8 c := by
  unfold bytes2; simp only [encode]
  rw [if_neg (by omega), if_pos h', tail', show (0x7C0 : Nat) = 0x1F <<< 6 from rfl, and_shift, and1F,
    lead2' _ (by omega)]
  simp only [Nat.shiftRight_eq_div_pow]
  congr 2; omega
theorem bytes3_eq {c : Nat} (h : 0x800 ≤ c) (h' : c < 0x10000) : bytes3 c = encode .utf8 c := by
  unfold bytes3; simp only [encode]
  rw [if_neg (by omega), if_neg (by omega), if_pos h', tail', show (0xFC0 : Nat) = 0x3F <<< 6 from rfl, and_shift,
    tail', show (0xF000 : Nat) = 0xF <<< 12 from rfl, and_shift, and0F, lead3' _ (by omega)]
  simp only [Nat.shiftRight_eq_div_pow]
  congr 2; omega
theorem bytes4_eq {c : Nat} (h : 0x10000 ≤ c) (h' : c < 0x110000) : bytes4 c = encode .utf8 c := by
  unfold bytes4; simp only [encode]
  rw [if_neg (by omega), if_neg (by omega), if_neg (by omega), tail', show (0xFC0 : Nat) = 0x3F <<< 6 from rfl,
    and_shift, tail', show (0x3F000 : Nat) = 0x3F <<< 12 from rfl, and_shift, tail',
    show (0x1C0000 : Nat) = 0x7 <<< 18 from rfl, and_shift, and07, lead4' _ (by omega)]
  simp only [Nat.shiftRight_eq_div_pow]
  congr 2; omega
theorem pair16_eq {c : Nat} (h : 0x10000 ≤ c) (h' : c < 0x110000) : pair16 c = encode .utf16 c := by
  unfold pair16; simp only [encode]
  rw [if_neg (by omega), and3FF]
  have h1 : tr16 (0xD800 + (c - 0x10000) >>> 10) = 0xD800 + (c - 0x10000) / 0x400 := by
    unfold tr16; simp only [Nat.shiftRight_eq_div_pow]; omega
  have h2 : tr16 (0xDC00 + (c - 0x10000) % 1024) = 0xDC00 + (c - 0x10000) % 0x400 := by
    unfold tr16; omega
  rw [h1, h2]

theorem encodeChar_eq {e : Enc} {c : Nat} (h : c < 0x110000) : encodeChar e c = encode e c := by
  cases e
  · simp only [encodeChar]
    split_ifs with h1 h2 h3
    · simp only [encode]; rw [if_pos h1]; unfold tr8; congr 1; omega
    · exact bytes2_eq (by omega) h2
    · exact bytes3_eq (by omega) h3
    · exact bytes4_eq (by omega) h
  · simp only [encodeChar]
    split_ifs with h1
    · simp only [encode]; rw [if_pos h1]; unfold tr16; congr 1; omega
    · exact pair16_eq (by omega) h
  · rfl

theorem encodeChar_big {e : Enc} {c : Nat} (h : 0x110000 ≤ c) (he : e ≠ .utf32) :
    encodeChar e c = encode e 0xFFFD := by
  cases e
  · simp only [encodeChar]; rw [if_neg (by omega), if_neg (by omega), if_neg (by omega), if_neg (by omega)]; rfl
  · simp only [encodeChar]; rw [if_neg (by omega), if_neg (by omega)]; rfl
  · exact absurd rfl he

theorem encodeChar_length (e : Enc) (c : Nat) : (encodeChar e c).length = encodedCharSize e c := by
  cases e
  · simp only [encodeChar, encodedCharSize]; split_ifs <;> rfl
  · simp only [encodeChar, encodedCharSize]; split_ifs <;> first | rfl | omega
  · rfl

variable {σ : Type} {D : Dest.Dest Nat σ} {Rep : σ → List Nat → Prop}

theorem replicate_flatten_length (n : Nat) (seq : List Nat) :
    (List.replicate n seq).flatten.length = n * seq.length := by
  induction n with
  | zero => simp
  | succ n ih => simp [List.replicate_succ, Nat.add_mul, ih]; omega

theorem repeatSequence_prints (L : Lawful D Rep) (seq : List Nat) (h0 : 0 < seq.length) (h4 : seq.length ≤ 64)
    (fuel : Nat) :
    ∀ (s : σ) (t : List Nat) (n : Int), Rep s t →
      (n.toNat + 1 < fuel ∨ (seq.length ≤ D.space s ∧ n.toNat < fuel)) →
      ∃ s', repeatSequence D seq fuel s n = some s' ∧ Rep s' (t ++ (List.replicate n.toNat seq).flatten) ∧
        Dest.After τ D s s' (List.replicate n.toNat seq).flatten.length := by
  induction fuel with
  | zero => intro s t n _ h; omega
  | succ fuel ih =>
    intro s t n h hf
    unfold repeatSequence
    dsimp only
    obtain ⟨sp, hsp⟩ : ∃ sp, sp = D.space s / seq.length := ⟨_, rfl⟩
    rw [← hsp]
    have hspace : sp * seq.length ≤ D.space s := by rw [hsp]; exact Nat.div_mul_le_self _ _
    obtain ⟨k, hk⟩ : ∃ k : Nat, k = (if (sp : Int) < n then (sp : Int) else n).toNat := ⟨_, rfl⟩
    rw [← hk]
    have hkle : k ≤ sp := by rw [hk]; split <;> omega
    obtain ⟨s1, e1, r1, sz1, g1⟩ := L.poke s t (List.replicate k seq).flatten h (by
      rw [replicate_flatten_length]; exact le_trans (Nat.mul_le_mul_right _ hkle) hspace)
    simp only [e1]
    by_cases hc : n ≤ (sp : Int)
    · rw [if_pos hc]
      have : k = n.toNat := by rw [hk]; split <;> omega
      rw [this] at r1 sz1
      exact ⟨s1, rfl, r1, .poke sz1 g1⟩
    · rw [if_neg hc]
      have hks : k = sp := by rw [hk, if_pos (by omega)]; omega
      have hover : D.space s < (List.replicate n.toNat seq).flatten.length := by
        rw [replicate_flatten_length]
        have h1 := Nat.lt_mul_div_succ (D.space s) h0
        rw [← hsp, Nat.mul_comm] at h1
        exact lt_of_lt_of_le h1 (Nat.mul_le_mul_right _ (by omega))
      obtain ⟨r2, sp2, g2⟩ := L.recycle s1 _ r1 (by
        rw [replicate_flatten_length, hks, hsp, Nat.mul_comm] at sz1
        have := Nat.mod_add_div (D.space s) seq.length
        have := Nat.mod_lt (D.space s) (show seq.length > 0 by omega)
        omega)
      have hcat : ∀ t : List Nat, t ++ (List.replicate k seq).flatten ++ (List.replicate (n - sp).toNat seq).flatten
          = t ++ (List.replicate n.toNat seq).flatten := by
        intro t
        rw [List.append_assoc, ← List.flatten_append, List.replicate_append_replicate,
          show k + (n - sp).toNat = n.toNat by omega]
      by_cases hg : D.good (D.recycle s1) = true
      · have hsp2 : seq.length ≤ D.space (D.recycle s1) := by omega
        obtain ⟨s', e', r', g'⟩ := ih (D.recycle s1) _ (n - sp) r2 (by
          right
          refine ⟨hsp2, ?_⟩
          rcases hf with hf | ⟨hf, hf'⟩
          · omega
          · have : 1 ≤ sp := by rw [hsp]; exact (Nat.one_le_div_iff h0).mpr hf
            omega)
        rw [hcat] at r'
        simp only [Dest.flush, hg]
        exact ⟨s', e', r', .over (fun x => g1 ▸ g2 (g'.1 x)) hover⟩
      · simp only [Dest.flush, hg]
        have := L.bad _ _ (List.replicate (n - sp).toNat seq).flatten r2 (by simpa using hg)
        rw [hcat] at this
        exact ⟨_, rfl, this, .over (fun x => absurd x hg) hover⟩

theorem flatten_replicate_single (n c : Nat) : (List.replicate n [c]).flatten = List.replicate n c := by
  induction n with
  | zero => rfl
  | succ n ih => simp [List.replicate_succ, ih]

/-- encode_fill prints that many encoded characters. -/
theorem encodeFill_prints (L : Lawful D Rep) (e : Enc) (n : Int) (c : Nat) :
    Prints τ D Rep (fun s => encodeFill D s n c e) (List.replicate n.toNat (encodeChar e c)).flatten := by
  intro s t h
  have single : ∀ u : Nat, encodeChar e c = [u] →
      ∃ s', Dest.writeFill D s n u = some s' ∧ Rep s' (t ++ (List.replicate n.toNat (encodeChar e c)).flatten) ∧
        Dest.After τ D s s' (List.replicate n.toNat (encodeChar e c)).flatten.length := by
    intro u hu
    rw [hu, flatten_replicate_single]
    exact L.prints_fill (τ := τ) n u s t h
  have multi : ∀ seq : List Nat, encodeChar e c = seq → 0 < seq.length → seq.length ≤ 64 →
      ∃ s', repeatSequence D seq (n.toNat + 2) s n = some s' ∧
        Rep s' (t ++ (List.replicate n.toNat (encodeChar e c)).flatten) ∧
        Dest.After τ D s s' (List.replicate n.toNat (encodeChar e c)).flatten.length := by
    intro seq hs h0 h4
    rw [hs]
    exact repeatSequence_prints L seq h0 h4 _ s t n h (by omega)
  cases e
  · simp only [encodeFill]
    split_ifs with h1 h2 h3 h4
    · exact single _ (by simp [encodeChar, h1])
    · exact multi _ (by simp [encodeChar, h1, h2]) (by simp [bytes2]) (by simp [bytes2])
    · exact multi _ (by simp [encodeChar, h1, h2, h3]) (by simp [bytes3]) (by simp [bytes3])
    · exact multi _ (by simp [encodeChar, h1, h2, h3, h4]) (by simp [bytes4]) (by simp [bytes4])
    · exact multi _ (by simp [encodeChar, h1, h2, h3, h4]) (by simp) (by simp)
  · simp only [encodeFill]
    split_ifs with h1 h2
    · exact single _ (by simp [encodeChar, h1])
    · exact multi _ (by simp [encodeChar, h1, h2]) (by simp [pair16]) (by simp [pair16])
    · exact single _ (by simp [encodeChar, h1, h2])
  · exact single _ rfl

theorem writeReplacement_prints (L : Lawful D Rep) (e : Enc) :
    Prints τ D Rep (fun s => writeReplacement D s e) (encode e 0xFFFD) := by
  cases e
  · exact L.prints_raw (τ := τ) 3 _ (by decide) (by decide)
  · exact L.prints_raw (τ := τ) 1 _ (by decide) (by decide)
  · exact L.prints_raw (τ := τ) 1 _ (by decide) (by decide)

end Strf.Utf

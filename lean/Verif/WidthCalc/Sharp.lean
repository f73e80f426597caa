import Verif.WidthCalc.Props
/-!
# C44, where exactly `str_width_and_pos` of std_width_calc differs from its contract

The function reads blocks of 32 code points and stops after a block if no room is left: it does not look whether the next
block begins with characters that take no room.
-/
namespace Strf.WidthCalc
open Strf.Width
open Strf.Utf (Enc Item Units Parses items extent)

/-- After `k` code points, a multiple of 32 and not all of them, the text has exactly the width of the limit. -/
def BlockStop (s : List Nat) (limit : Int) (k : Nat) : Prop :=
  0 < k ∧ k % 32 = 0 ∧ k < s.length ∧ (textColumns (s.take k) : Int) * 65536 = limit

/-- The number of code points accepted: up to the first such place, and the longest beginning that fits if there is none. -/
def Accepted (s : List Nat) (limit : Int) (n : Nat) : Prop :=
  (BlockStop s limit n ∧ ∀ k, k < n → ¬ BlockStop s limit k) ∨ ((∀ k, ¬ BlockStop s limit k) ∧ Longest s limit n)

theorem textColumns_mono (s : List Nat) {m n : Nat} (h : m ≤ n) :
    textColumns (s.take m) ≤ textColumns (s.take n) := by
  have e : s.take n = s.take m ++ (s.take n).drop m := by
    have := List.take_append_drop m (s.take n)
    rw [List.take_take, Nat.min_eq_left h] at this
    exact this.symm
  unfold textColumns
  rw [e, columnsAfter_append]
  omega

theorem accepted_of {s : List Nat} {limit : Int} {n : Nat}
    (h : Longest s limit n ∨ (n % 32 = 0 ∧ 0 < n ∧ n < s.length ∧ (textColumns (s.take n) : Int) * 65536 = limit))
    (h' : ∀ k, 0 < k → k % 32 = 0 → k < s.length → (textColumns (s.take k) : Int) * 65536 = limit → n ≤ k) :
    Accepted s limit n := by
  have hmin : ∀ k, k < n → ¬ BlockStop s limit k := fun k hk g => by have := h' k g.1 g.2.1 g.2.2.1 g.2.2.2; omega
  by_cases hs : BlockStop s limit n
  · exact .inl ⟨hs, hmin⟩
  · have hL : Longest s limit n := h.resolve_right fun g => hs ⟨g.2.1, g.1, g.2.2.1, g.2.2.2⟩
    refine .inr ⟨fun k g => ?_, hL⟩
    have h1 := h' k g.1 g.2.1 g.2.2.1 g.2.2.2
    by_cases he : n = k
    · exact hs (he ▸ g)
    · have := hL.2 k (by omega) (by have := g.2.2.1; omega)
      have := g.2.2.2
      omega

/-- The number accepted is determined by the text and the limit. -/
theorem Accepted.unique {s : List Nat} {limit : Int} {n m : Nat} (hn : n ≤ s.length) (hm : m ≤ s.length)
    (h1 : Accepted s limit n) (h2 : Accepted s limit m) : n = m := by
  rcases h1 with ⟨a1, a2⟩ | ⟨a1, a2⟩ <;> rcases h2 with ⟨b1, b2⟩ | ⟨b1, b2⟩
  · rcases Nat.lt_trichotomy n m with g | g | g
    · exact absurd a1 (b2 n g)
    · exact g
    · exact absurd b1 (a2 m g)
  · exact absurd a1 (b1 n)
  · exact absurd b1 (a1 m)
  · rcases Nat.lt_trichotomy n m with g | g | g
    · have := a2.2 m g hm; have := b2.1; omega
    · exact g
    · have := b2.2 n g hn; have := a2.1; omega

/-- What is accepted is the longest beginning that fits exactly if there is no place, a multiple of 32 code points into the
text, where the limit is reached and the next code point takes no room. -/
theorem Accepted.longest_iff {s : List Nat} {limit : Int} {n : Nat} (h : Accepted s limit n) :
    Longest s limit n ↔ ¬ ∃ k, BlockStop s limit k ∧ textColumns (s.take (k + 1)) = textColumns (s.take k) := by
  constructor
  · rintro hL ⟨k, hk, hz⟩
    rcases h with ⟨a1, a2⟩ | ⟨a1, _⟩
    · have hnk : n ≤ k := by
        by_contra g
        exact a2 k (by omega) hk
      have := hL.2 (k + 1) (by omega) (by have := hk.2.2.1; omega)
      have := hk.2.2.2
      omega
    · exact a1 k hk
  · intro hno
    rcases h with ⟨a1, _⟩ | ⟨_, a2⟩
    · refine ⟨by have := a1.2.2.2; omega, fun m hm _ => ?_⟩
      have h1 := textColumns_mono s (show n ≤ n + 1 by omega)
      have h2 := textColumns_mono s (show n + 1 ≤ m by omega)
      have h3 : textColumns (s.take (n + 1)) ≠ textColumns (s.take n) := fun g => hno ⟨n, a1, g⟩
      have := a1.2.2.2
      omega
    · exact a2

/-- The width returned, the lesser of the limit and the width of the whole text, is the width of what is accepted exactly if
some beginning of the text has that width. -/
theorem Accepted.width_iff {s : List Nat} {limit : Int} {n : Nat} (hn : n ≤ s.length) (h : Accepted s limit n) :
    min limit (textColumns s * 65536) = (textColumns (s.take n) : Int) * 65536 ↔
      ∃ m, m ≤ s.length ∧ (textColumns (s.take m) : Int) * 65536 = min limit (textColumns s * 65536) := by
  constructor
  · intro g
    exact ⟨n, hn, g.symm⟩
  · rintro ⟨m, hm, g⟩
    have h1 : textColumns (s.take n) ≤ textColumns s := by
      have := textColumns_mono s hn
      rwa [List.take_length] at this
    rcases h with ⟨a1, _⟩ | ⟨_, a2⟩
    · have := a1.2.2.2
      omega
    · have h2 := a2.1
      by_cases hlt : n < m
      · have := a2.2 m hlt hm
        omega
      · have := textColumns_mono s (show m ≤ n by omega)
        omega

/-- C44, str_width_and_pos, exactly, for every text and every limit that is not negative: the number of characters accepted
(`Accepted`, which determines it), and when that is the longest beginning that fits (its first missing part) and the width
returned is that of what is accepted (its second). -/
theorem std_str_width_and_pos_iff (signed : Bool) (e : Enc) (src : List Nat) (h : Units e src) (limit : Int)
    (hl : limit ≤ wmax) (h0 : 0 ≤ limit) :
    ∃ its n w, Parses e false src its ∧ n ≤ its.length ∧ Accepted (its.map Item.char) limit n ∧
      stdStrWidthPos (utf signed e) limit src = some (w, src.drop (extent e (its.take n))) ∧
      (Longest (its.map Item.char) limit n ↔
        ¬ ∃ k, BlockStop (its.map Item.char) limit k ∧
          textColumns ((its.map Item.char).take (k + 1)) = textColumns ((its.map Item.char).take k)) ∧
      (w = (textColumns ((its.map Item.char).take n) : Int) * 65536 ↔
        ∃ m, m ≤ its.length ∧ (textColumns ((its.map Item.char).take m) : Int) * 65536 =
          min limit (textColumns (its.map Item.char) * 65536)) := by
  obtain ⟨n, h1, h2, h3, h4⟩ := std_pos (utf_lawful signed e) h limit hl h0
  have e1 : cps (utfRead e) src = (items e false src).map Item.char := by
    unfold utfRead
    simp [cps, List.map_map, Function.comp_def]
  rw [e1] at h2 h3 h4
  have e2 : (utfRead e src).length = ((items e false src).map Item.char).length := by simp [utfRead]
  rw [e2] at h1 h3 h4
  have hA := accepted_of h3 h4
  have e3 : ext ((utfRead e src).take n) = extent e ((items e false src).take n) := by
    unfold utfRead
    rw [← List.map_take, ext_utf]
  rw [e3] at h2
  refine ⟨items e false src, n, _, Utf.parses_items src h, by simpa using h1, hA, h2, hA.longest_iff, ?_⟩
  rw [hA.width_iff h1]
  simp

/-- The same on single-byte charsets. -/
theorem std_str_width_and_pos_sbc_iff (I : Sbc.Impl) (hI : I ∈ Sbc.all) (src : List Nat) (h : ∀ b ∈ src, b < 256)
    (limit : Int) (hl : limit ≤ wmax) (h0 : 0 ≤ limit) :
    ∃ n w, n ≤ src.length ∧ Accepted (src.map I.decode) limit n ∧
      stdStrWidthPos (sbc I) limit src = some (w, src.drop n) ∧
      (Longest (src.map I.decode) limit n ↔
        ¬ ∃ k, BlockStop (src.map I.decode) limit k ∧
          textColumns ((src.map I.decode).take (k + 1)) = textColumns ((src.map I.decode).take k)) ∧
      (w = (textColumns ((src.map I.decode).take n) : Int) * 65536 ↔
        ∃ m, m ≤ src.length ∧ (textColumns ((src.map I.decode).take m) : Int) * 65536 =
          min limit (textColumns (src.map I.decode) * 65536)) := by
  obtain ⟨n, h1, h2, h3, h4⟩ := std_pos (sbc_lawful I hI) h limit hl h0
  have e1 : cps (sbcRead I) src = src.map I.decode := by
    unfold sbcRead
    simp [cps, List.map_map, Function.comp_def]
  rw [e1] at h2 h3 h4
  have e2 : (sbcRead I src).length = (src.map I.decode).length := by simp [sbcRead]
  rw [e2] at h1 h3 h4
  have hA := accepted_of h3 h4
  have e3 : ext ((sbcRead I src).take n) = n := by
    unfold sbcRead
    rw [← List.map_take, ext_sbc, List.length_take]
    simp at h1
    omega
  rw [e3] at h2
  refine ⟨n, _, by simpa using h1, hA, h2, hA.longest_iff, ?_⟩
  rw [hA.width_iff h1]
  simp

/-- Both cases happen: 40 letters and a limit of 32 columns stop at a block (and it is the longest beginning); with an acute
accent after the 32nd letter it is not the longest. -/
example : BlockStop (List.replicate 40 0x65) (32 * 65536) 32 ∧
    textColumns ((List.replicate 40 0x65).take 33) ≠ textColumns ((List.replicate 40 0x65).take 32) := by
  unfold BlockStop; decide +kernel
example : BlockStop (List.replicate 32 0x65 ++ [0x301]) (32 * 65536) 32 ∧
    textColumns ((List.replicate 32 0x65 ++ [0x301]).take 33) =
      textColumns ((List.replicate 32 0x65 ++ [0x301]).take 32) := by
  unfold BlockStop; decide +kernel

end Strf.WidthCalc

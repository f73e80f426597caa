import Verif.Sbc.TableLemmas
/-! # Encoding followed by decoding -/
namespace Strf.Sbc

theorem inverse_ascii : Inverse ascii := by
  intro ch  h1 h2
  rcases Nat.lt_or_ge ch 0x100 with g | g
  · revert h1 h2; revert ch; decide +kernel
  · simp only [ascii] at h1; rw [if_neg (by omega), if_neg h2] at h1; omega

theorem inverse_iso_8859_1 : Inverse iso_8859_1 := by
  intro ch  h1 h2
  rcases Nat.lt_or_ge ch 0x100 with g | g
  · revert h1 h2; revert ch; decide +kernel
  · simp only [iso_8859_1] at h1; rw [if_neg h2] at h1; omega

theorem inverse_iso_8859_2 : Inverse iso_8859_2 := by
  intro ch  h1 h2
  rw [encode_iso_8859_2] at h1 ⊢
  rcases Nat.lt_or_ge ch 0x100 with g | g
  · revert h1 h2; revert ch; decide +kernel
  · dsimp only at h1 ⊢
    rw [if_neg (by omega)] at h1 ⊢
    refine pick_all (P := fun ch v => 0x100 ≤ ch → v < 0x100 → ch ≠ 0xFFFD → iso_8859_2.decode v = ch) ?_ ?_ g h1 h2
    · decide +kernel
    · intros; omega

theorem inverse_iso_8859_3 : Inverse iso_8859_3 := by
  intro ch  h1 h2
  rw [encode_iso_8859_3] at h1 ⊢
  rcases Nat.lt_or_ge ch 0x100 with g | g
  · revert h1 h2; revert ch; decide +kernel
  · dsimp only at h1 ⊢
    rw [if_neg (by omega)] at h1 ⊢
    refine pick_all (P := fun ch v => 0x100 ≤ ch → v < 0x100 → ch ≠ 0xFFFD → iso_8859_3.decode v = ch) ?_ ?_ g h1 h2
    · decide +kernel
    · intros; omega

theorem inverse_iso_8859_4 : Inverse iso_8859_4 := by
  intro ch  h1 h2
  rw [encode_iso_8859_4] at h1 ⊢
  rcases Nat.lt_or_ge ch 0x100 with g | g
  · revert h1 h2; revert ch; decide +kernel
  · dsimp only at h1 ⊢
    rw [if_neg (by omega)] at h1 ⊢
    refine pick_all (P := fun ch v => 0x100 ≤ ch → v < 0x100 → ch ≠ 0xFFFD → iso_8859_4.decode v = ch) ?_ ?_ g h1 h2
    · decide +kernel
    · intros; omega

theorem inverse_iso_8859_5 : Inverse iso_8859_5 := by
  intro ch  h1 h2
  rw [encode_iso_8859_5] at h1 ⊢
  rcases Nat.lt_or_ge ch 0x100 with g | g
  · revert h1 h2; revert ch; decide +kernel
  · dsimp only at h1 ⊢
    rw [if_neg (by omega)] at h1 ⊢
    refine pick_all (P := fun ch v => 0x100 ≤ ch → v < 0x100 → ch ≠ 0xFFFD → iso_8859_5.decode v = ch) ?_ ?_ g h1 h2
    · decide +kernel
    · intros; omega

theorem inverse_iso_8859_6 : Inverse iso_8859_6 := by
  intro ch  h1 h2
  rw [encode_iso_8859_6] at h1 ⊢
  rcases Nat.lt_or_ge ch 0x100 with g | g
  · revert h1 h2; revert ch; decide +kernel
  · dsimp only at h1 ⊢
    rw [if_neg (by omega)] at h1 ⊢
    refine pick_all (P := fun ch v => 0x100 ≤ ch → v < 0x100 → ch ≠ 0xFFFD → iso_8859_6.decode v = ch) ?_ ?_ g h1 h2
    · decide +kernel
    · intros; omega

theorem inverse_iso_8859_7 : Inverse iso_8859_7 := by
  intro ch  h1 h2
  rw [encode_iso_8859_7] at h1 ⊢
  rcases Nat.lt_or_ge ch 0x100 with g | g
  · revert h1 h2; revert ch; decide +kernel
  · dsimp only at h1 ⊢
    rw [if_neg (by omega)] at h1 ⊢
    refine pick_all (P := fun ch v => 0x100 ≤ ch → v < 0x100 → ch ≠ 0xFFFD → iso_8859_7.decode v = ch) ?_ ?_ g h1 h2
    · decide +kernel
    · intros; omega

theorem inverse_iso_8859_8 : Inverse iso_8859_8 := by
  intro ch  h1 h2
  rw [encode_iso_8859_8] at h1 ⊢
  rcases Nat.lt_or_ge ch 0x100 with g | g
  · revert h1 h2; revert ch; decide +kernel
  · dsimp only at h1 ⊢
    rw [if_neg (by omega)] at h1 ⊢
    refine pick_all (P := fun ch v => 0x100 ≤ ch → v < 0x100 → ch ≠ 0xFFFD → iso_8859_8.decode v = ch) ?_ ?_ g h1 h2
    · decide +kernel
    · intros; omega

theorem inverse_iso_8859_9 : Inverse iso_8859_9 := by
  intro ch  h1 h2
  rcases Nat.lt_or_ge ch 0x100 with g | g
  · revert h1 h2; revert ch; decide +kernel
  · have e : iso_8859_9.encode ch = pick _ ch _ := if_neg (by omega)
    rw [e] at h1 ⊢
    refine pick_all (P := fun ch v => 0x100 ≤ ch → v < 0x100 → ch ≠ 0xFFFD → iso_8859_9.decode v = ch) ?_ ?_ g h1 h2
    · decide +kernel
    · intros; omega

theorem inverse_iso_8859_10 : Inverse iso_8859_10 := by
  intro ch  h1 h2
  rw [encode_iso_8859_10] at h1 ⊢
  rcases Nat.lt_or_ge ch 0x100 with g | g
  · revert h1 h2; revert ch; decide +kernel
  · dsimp only at h1 ⊢
    rw [if_neg (by omega)] at h1 ⊢
    refine pick_all (P := fun ch v => 0x100 ≤ ch → v < 0x100 → ch ≠ 0xFFFD → iso_8859_10.decode v = ch) ?_ ?_ g h1 h2
    · decide +kernel
    · intros; omega

theorem inverse_iso_8859_11 : Inverse iso_8859_11 := by
  intro ch  h1 h2
  rw [encode_iso_8859_11] at h1 ⊢
  rcases Nat.lt_or_ge ch 0x100 with g | g
  · revert h1 h2; revert ch; decide +kernel
  · dsimp only at h1 ⊢
    rw [if_neg (by omega)] at h1 ⊢
    refine pick_all (P := fun ch v => 0x100 ≤ ch → v < 0x100 → ch ≠ 0xFFFD → iso_8859_11.decode v = ch) ?_ ?_ g h1 h2
    · decide +kernel
    · intros; omega

theorem inverse_iso_8859_13 : Inverse iso_8859_13 := by
  intro ch  h1 h2
  rw [encode_iso_8859_13] at h1 ⊢
  rcases Nat.lt_or_ge ch 0x100 with g | g
  · revert h1 h2; revert ch; decide +kernel
  · dsimp only at h1 ⊢
    rw [if_neg (by omega)] at h1 ⊢
    refine pick_all (P := fun ch v => 0x100 ≤ ch → v < 0x100 → ch ≠ 0xFFFD → iso_8859_13.decode v = ch) ?_ ?_ g h1 h2
    · decide +kernel
    · intros; omega

theorem inverse_iso_8859_14 : Inverse iso_8859_14 := by
  intro ch  h1 h2
  rw [encode_iso_8859_14] at h1 ⊢
  rcases Nat.lt_or_ge ch 0x100 with g | g
  · revert h1 h2; revert ch; decide +kernel
  · dsimp only at h1 ⊢
    rw [if_neg (by omega)] at h1 ⊢
    refine pick_all (P := fun ch v => 0x100 ≤ ch → v < 0x100 → ch ≠ 0xFFFD → iso_8859_14.decode v = ch) ?_ ?_ g h1 h2
    · decide +kernel
    · intros; omega

theorem inverse_iso_8859_15 : Inverse iso_8859_15 := by
  intro ch  h1 h2
  rcases Nat.lt_or_ge ch 0x100 with g | g
  · revert h1 h2; revert ch; decide +kernel
  · have e : iso_8859_15.encode ch = pick _ ch _ := if_neg (by omega)
    rw [e] at h1 ⊢
    refine pick_all (P := fun ch v => 0x100 ≤ ch → v < 0x100 → ch ≠ 0xFFFD → iso_8859_15.decode v = ch) ?_ ?_ g h1 h2
    · decide +kernel
    · intros; omega

theorem inverse_iso_8859_16 : Inverse iso_8859_16 := by
  intro ch  h1 h2
  rw [encode_iso_8859_16] at h1 ⊢
  rcases Nat.lt_or_ge ch 0x100 with g | g
  · revert h1 h2; revert ch; decide +kernel
  · dsimp only at h1 ⊢
    rw [if_neg (by omega)] at h1 ⊢
    refine pick_all (P := fun ch v => 0x100 ≤ ch → v < 0x100 → ch ≠ 0xFFFD → iso_8859_16.decode v = ch) ?_ ?_ g h1 h2
    · decide +kernel
    · intros; omega

theorem inverse_windows_1250 : Inverse windows_1250 := by
  intro ch  h1 h2
  rw [encode_windows_1250] at h1 ⊢
  rcases Nat.lt_or_ge ch 0x100 with g | g
  · revert h1 h2; revert ch; decide +kernel
  · dsimp only at h1 ⊢
    rw [if_neg (by omega)] at h1 ⊢
    refine pick_all (P := fun ch v => 0x100 ≤ ch → v < 0x100 → ch ≠ 0xFFFD → windows_1250.decode v = ch) ?_ ?_ g h1 h2
    · decide +kernel
    · intros; omega

theorem inverse_windows_1251 : Inverse windows_1251 := by
  intro ch  h1 h2
  rw [encode_windows_1251] at h1 ⊢
  rcases Nat.lt_or_ge ch 0x100 with g | g
  · revert h1 h2; revert ch; decide +kernel
  · dsimp only at h1 ⊢
    rw [if_neg (by omega)] at h1 ⊢
    refine pick_all (P := fun ch v => 0x100 ≤ ch → v < 0x100 → ch ≠ 0xFFFD → windows_1251.decode v = ch) ?_ ?_ g h1 h2
    · decide +kernel
    · intros; omega

theorem inverse_windows_1252 : Inverse windows_1252 := by
  intro ch  h1 h2
  rcases Nat.lt_or_ge ch 0x100 with g | g
  · revert h1 h2; revert ch; decide +kernel
  · have e : windows_1252.encode ch = pick _ ch _ := if_neg (by omega)
    rw [e] at h1 ⊢
    refine pick_all (P := fun ch v => 0x100 ≤ ch → v < 0x100 → ch ≠ 0xFFFD → windows_1252.decode v = ch) ?_ ?_ g h1 h2
    · decide +kernel
    · intros; omega

theorem inverse_windows_1253 : Inverse windows_1253 := by
  intro ch  h1 h2
  rw [encode_windows_1253] at h1 ⊢
  rcases Nat.lt_or_ge ch 0x100 with g | g
  · revert h1 h2; revert ch; decide +kernel
  · dsimp only at h1 ⊢
    rw [if_neg (by omega)] at h1 ⊢
    refine pick_all (P := fun ch v => 0x100 ≤ ch → v < 0x100 → ch ≠ 0xFFFD → windows_1253.decode v = ch) ?_ ?_ g h1 h2
    · decide +kernel
    · intros; omega

theorem inverse_but_windows_1254 : ∀ ch, ch ∉ [0xD0, 0xDD, 0xDE, 0xF0, 0xFD, 0xFE] → windows_1254.encode ch < 0x100 → ch ≠ 0xFFFD → windows_1254.decode (windows_1254.encode ch) = ch := by
  intro ch x0 h1 h2
  rcases Nat.lt_or_ge ch 0x100 with g | g
  · revert x0 h1 h2; revert ch; decide +kernel
  · have e : windows_1254.encode ch = pick _ ch _ := if_neg (by omega)
    rw [e] at h1 ⊢
    refine pick_all (P := fun ch v => 0x100 ≤ ch → v < 0x100 → ch ≠ 0xFFFD → windows_1254.decode v = ch) ?_ ?_ g h1 h2
    · decide +kernel
    · intros; rw [if_neg (by omega)] at *; omega

theorem inverse_windows_1255 : Inverse windows_1255 := by
  intro ch  h1 h2
  rw [encode_windows_1255] at h1 ⊢
  rcases Nat.lt_or_ge ch 0x100 with g | g
  · revert h1 h2; revert ch; decide +kernel
  · dsimp only at h1 ⊢
    rw [if_neg (by omega)] at h1 ⊢
    refine pick_all (P := fun ch v => 0x100 ≤ ch → v < 0x100 → ch ≠ 0xFFFD → windows_1255.decode v = ch) ?_ ?_ g h1 h2
    · decide +kernel
    · intros; omega

theorem inverse_windows_1256 : Inverse windows_1256 := by
  intro ch  h1 h2
  rw [encode_windows_1256] at h1 ⊢
  rcases Nat.lt_or_ge ch 0x100 with g | g
  · revert h1 h2; revert ch; decide +kernel
  · dsimp only at h1 ⊢
    rw [if_neg (by omega)] at h1 ⊢
    refine pick_all (P := fun ch v => 0x100 ≤ ch → v < 0x100 → ch ≠ 0xFFFD → windows_1256.decode v = ch) ?_ ?_ g h1 h2
    · decide +kernel
    · intros; omega

theorem inverse_windows_1257 : Inverse windows_1257 := by
  intro ch  h1 h2
  rw [encode_windows_1257] at h1 ⊢
  rcases Nat.lt_or_ge ch 0x100 with g | g
  · revert h1 h2; revert ch; decide +kernel
  · dsimp only at h1 ⊢
    rw [if_neg (by omega)] at h1 ⊢
    refine pick_all (P := fun ch v => 0x100 ≤ ch → v < 0x100 → ch ≠ 0xFFFD → windows_1257.decode v = ch) ?_ ?_ g h1 h2
    · decide +kernel
    · intros; omega

theorem inverse_but_windows_1258 : ∀ ch, ch ≠ 0x9F → windows_1258.encode ch < 0x100 → ch ≠ 0xFFFD → windows_1258.decode (windows_1258.encode ch) = ch := by
  intro ch x0 h1 h2
  rw [encode_windows_1258] at h1 ⊢
  rcases Nat.lt_or_ge ch 0x100 with g | g
  · revert x0 h1 h2; revert ch; decide +kernel
  · dsimp only at h1 ⊢
    rw [if_neg (by omega)] at h1 ⊢
    refine pick_all (P := fun ch v => 0x100 ≤ ch → v < 0x100 → ch ≠ 0xFFFD → windows_1258.decode v = ch) ?_ ?_ g h1 h2
    · decide +kernel
    · intros; omega

end Strf.Sbc
import Verif.Sbc.Tables
import Verif.Sbc.LookupLemmas
/-!
# Facts about each charset's tables

Each is a check of a whole table by the kernel (256 bytes, and the entries of the map), extended to all numbers by
`lookup_eq` and `pick_mem`.
-/
namespace Strf.Sbc

theorem forall_byte {p : Nat → Prop} [DecidablePred p] (h : ∀ x : Fin 256, p x.val) : ∀ x, x < 256 → p x :=
  fun x hx => h ⟨x, hx⟩

/-- The facts used about a charset. -/
structure Good (I : Impl) : Prop where
  back : ∀ b, b < 256 → I.isValid b = true → I.encode (I.decode b) = b
  valid : ∀ b, b < 256 → (I.isValid b = false ↔ I.decode b = 0xFFFD)
  checks : I.checksInvalid = false → ∀ b, b < 256 → I.isValid b = true
  ascii : ∀ b, b < 0x80 → I.decode b = b ∧ I.encode b = b ∧ I.isValid b = true
  range : ∀ b, b < 256 → I.decode b < 0xD800 ∨ I.decode b = 0xFFFD
  fffd : I.encode 0xFFFD = 0x3F
  big : ∀ ch, 0xD800 ≤ ch → ch ≠ 0xFFFD → 0x100 ≤ I.encode ch

/-- If all entries satisfy `P`, and the default does, then the result does. -/
theorem pick_all {m : List (Nat × Nat)} {ch d : Nat} {P : Nat → Nat → Prop} (h : ∀ p, p ∈ m → P p.1 p.2)
    (hd : P ch d) : P ch (pick m ch d) := by
  rcases pick_mem (m := m) (ch := ch) (d := d) with ⟨v, hv, e⟩ | ⟨_, e⟩
  · rw [e]; exact h _ hv
  · rw [e]; exact hd

/-- What `encode` gives below 0x100 decodes to what was encoded. -/
def Inverse (I : Impl) : Prop := ∀ ch, I.encode ch < 0x100 → ch ≠ 0xFFFD → I.decode (I.encode ch) = ch

theorem encode_iso_8859_2 : iso_8859_2.encode = fun ch => if ch ≤ 0xA0 then ch else pick map_iso_8859_2 ch 0x100 := by
  funext ch
  show (if ch ≤ 0xA0 then ch else lookup map_iso_8859_2 ch) = _
  rw [lookup_eq (by decide +kernel)]

theorem encode_iso_8859_3 : iso_8859_3.encode = fun ch => if ch ≤ 0xA0 then ch else pick map_iso_8859_3 ch 0x100 := by
  funext ch
  show (if ch ≤ 0xA0 then ch else lookup map_iso_8859_3 ch) = _
  rw [lookup_eq (by decide +kernel)]

theorem encode_iso_8859_4 : iso_8859_4.encode = fun ch => if ch ≤ 0xA0 then ch else pick map_iso_8859_4 ch 0x100 := by
  funext ch
  show (if ch ≤ 0xA0 then ch else lookup map_iso_8859_4 ch) = _
  rw [lookup_eq (by decide +kernel)]

theorem encode_iso_8859_5 : iso_8859_5.encode = fun ch => if ch ≤ 0xA0 then ch else pick map_iso_8859_5 ch 0x100 := by
  funext ch
  show (if ch ≤ 0xA0 then ch else lookup map_iso_8859_5 ch) = _
  rw [lookup_eq (by decide +kernel)]

theorem encode_iso_8859_6 : iso_8859_6.encode = fun ch => if ch ≤ 0xA0 then ch else pick map_iso_8859_6 ch 0x100 := by
  funext ch
  show (if ch ≤ 0xA0 then ch else lookup map_iso_8859_6 ch) = _
  rw [lookup_eq (by decide +kernel)]

theorem encode_iso_8859_7 : iso_8859_7.encode = fun ch => if ch ≤ 0xA0 then ch else pick map_iso_8859_7 ch 0x100 := by
  funext ch
  show (if ch ≤ 0xA0 then ch else lookup map_iso_8859_7 ch) = _
  rw [lookup_eq (by decide +kernel)]

theorem encode_iso_8859_8 : iso_8859_8.encode = fun ch => if ch ≤ 0xA0 then ch else pick map_iso_8859_8 ch 0x100 := by
  funext ch
  show (if ch ≤ 0xA0 then ch else lookup map_iso_8859_8 ch) = _
  rw [lookup_eq (by decide +kernel)]

theorem encode_iso_8859_10 : iso_8859_10.encode = fun ch => if ch ≤ 0xA0 then ch else pick map_iso_8859_10 ch 0x100 := by
  funext ch
  show (if ch ≤ 0xA0 then ch else lookup map_iso_8859_10 ch) = _
  rw [lookup_eq (by decide +kernel)]

theorem encode_iso_8859_11 : iso_8859_11.encode = fun ch => if ch ≤ 0xA0 then ch else pick map_iso_8859_11 ch 0x100 := by
  funext ch
  show (if ch ≤ 0xA0 then ch else lookup map_iso_8859_11 ch) = _
  rw [lookup_eq (by decide +kernel)]

theorem encode_iso_8859_13 : iso_8859_13.encode = fun ch => if ch ≤ 0xA0 then ch else pick map_iso_8859_13 ch 0x100 := by
  funext ch
  show (if ch ≤ 0xA0 then ch else lookup map_iso_8859_13 ch) = _
  rw [lookup_eq (by decide +kernel)]

theorem encode_iso_8859_14 : iso_8859_14.encode = fun ch => if ch ≤ 0xA0 then ch else pick map_iso_8859_14 ch 0x100 := by
  funext ch
  show (if ch ≤ 0xA0 then ch else lookup map_iso_8859_14 ch) = _
  rw [lookup_eq (by decide +kernel)]

theorem encode_iso_8859_16 : iso_8859_16.encode = fun ch => if ch ≤ 0xA0 then ch else pick map_iso_8859_16 ch 0x100 := by
  funext ch
  show (if ch ≤ 0xA0 then ch else lookup map_iso_8859_16 ch) = _
  rw [lookup_eq (by decide +kernel)]

theorem encode_windows_1250 : windows_1250.encode = fun ch => if ch < 0x80 then ch else pick map_windows_1250 ch 0x100 := by
  funext ch
  show (if ch < 0x80 then ch else lookup map_windows_1250 ch) = _
  rw [lookup_eq (by decide +kernel)]

theorem encode_windows_1251 : windows_1251.encode = fun ch => if ch < 0x80 then ch else pick map_windows_1251 ch 0x100 := by
  funext ch
  show (if ch < 0x80 then ch else lookup map_windows_1251 ch) = _
  rw [lookup_eq (by decide +kernel)]

theorem encode_windows_1253 : windows_1253.encode = fun ch => if ch < 0x80 then ch else pick map_windows_1253 ch 0x100 := by
  funext ch
  show (if ch < 0x80 then ch else lookup map_windows_1253 ch) = _
  rw [lookup_eq (by decide +kernel)]

theorem encode_windows_1255 : windows_1255.encode = fun ch => if ch < 0x80 then ch else pick map_windows_1255 ch 0x100 := by
  funext ch
  show (if ch < 0x80 then ch else lookup map_windows_1255 ch) = _
  rw [lookup_eq (by decide +kernel)]

theorem encode_windows_1256 : windows_1256.encode = fun ch => if ch < 0x80 then ch else pick map_windows_1256 ch 0x100 := by
  funext ch
  show (if ch < 0x80 then ch else lookup map_windows_1256 ch) = _
  rw [lookup_eq (by decide +kernel)]

theorem encode_windows_1257 : windows_1257.encode = fun ch => if ch < 0x80 then ch else pick map_windows_1257 ch 0x100 := by
  funext ch
  show (if ch < 0x80 then ch else lookup map_windows_1257 ch) = _
  rw [lookup_eq (by decide +kernel)]

theorem encode_windows_1258 : windows_1258.encode = fun ch => if ch < 0x80 then ch else pick map_windows_1258 ch 0x100 := by
  funext ch
  show (if ch < 0x80 then ch else lookup map_windows_1258 ch) = _
  rw [lookup_eq (by decide +kernel)]

theorem good_ascii : Good ascii where
  back := by
    apply forall_byte; decide +kernel
  valid := by
    apply forall_byte; decide +kernel
  checks := by decide +kernel
  ascii := by
    intro b hb
    revert hb; revert b
    decide +kernel
  range := by
    apply forall_byte; decide +kernel
  fffd := by decide +kernel
  big := by
    intro ch h1 h2
    simp only [ascii]
    rw [if_neg (by omega), if_neg h2]; omega

theorem good_iso_8859_1 : Good iso_8859_1 where
  back := by
    apply forall_byte; decide +kernel
  valid := by
    apply forall_byte; decide +kernel
  checks := by decide +kernel
  ascii := by
    intro b hb
    revert hb; revert b
    decide +kernel
  range := by
    apply forall_byte; decide +kernel
  fffd := by decide +kernel
  big := by
    intro ch h1 h2
    simp only [iso_8859_1]
    rw [if_neg h2]; omega

theorem good_iso_8859_2 : Good iso_8859_2 where
  back := by
    rw [encode_iso_8859_2]; apply forall_byte; decide +kernel
  valid := by
    apply forall_byte; decide +kernel
  checks := by
    intro h; revert h; decide +kernel
  ascii := by
    rw [encode_iso_8859_2]; decide +kernel
  range := by
    apply forall_byte; decide +kernel
  fffd := by rw [encode_iso_8859_2]; decide +kernel
  big := by
    intro ch h1 h2
    rw [encode_iso_8859_2]
    dsimp only
    rw [if_neg (by omega)]
    refine pick_all (P := fun ch v => 0xD800 ≤ ch → ch ≠ 0xFFFD → 0x100 ≤ v) ?_ (by omega) h1 h2
    decide +kernel

theorem good_iso_8859_3 : Good iso_8859_3 where
  back := by
    rw [encode_iso_8859_3]; apply forall_byte; decide +kernel
  valid := by
    apply forall_byte; decide +kernel
  checks := by
    intro h; revert h; decide +kernel
  ascii := by
    rw [encode_iso_8859_3]; decide +kernel
  range := by
    apply forall_byte; decide +kernel
  fffd := by rw [encode_iso_8859_3]; decide +kernel
  big := by
    intro ch h1 h2
    rw [encode_iso_8859_3]
    dsimp only
    rw [if_neg (by omega)]
    refine pick_all (P := fun ch v => 0xD800 ≤ ch → ch ≠ 0xFFFD → 0x100 ≤ v) ?_ (by omega) h1 h2
    decide +kernel

theorem good_iso_8859_4 : Good iso_8859_4 where
  back := by
    rw [encode_iso_8859_4]; apply forall_byte; decide +kernel
  valid := by
    apply forall_byte; decide +kernel
  checks := by
    intro h; revert h; decide +kernel
  ascii := by
    rw [encode_iso_8859_4]; decide +kernel
  range := by
    apply forall_byte; decide +kernel
  fffd := by rw [encode_iso_8859_4]; decide +kernel
  big := by
    intro ch h1 h2
    rw [encode_iso_8859_4]
    dsimp only
    rw [if_neg (by omega)]
    refine pick_all (P := fun ch v => 0xD800 ≤ ch → ch ≠ 0xFFFD → 0x100 ≤ v) ?_ (by omega) h1 h2
    decide +kernel

theorem good_iso_8859_5 : Good iso_8859_5 where
  back := by
    rw [encode_iso_8859_5]; apply forall_byte; decide +kernel
  valid := by
    apply forall_byte; decide +kernel
  checks := by
    intro h; revert h; decide +kernel
  ascii := by
    rw [encode_iso_8859_5]; decide +kernel
  range := by
    apply forall_byte; decide +kernel
  fffd := by rw [encode_iso_8859_5]; decide +kernel
  big := by
    intro ch h1 h2
    rw [encode_iso_8859_5]
    dsimp only
    rw [if_neg (by omega)]
    refine pick_all (P := fun ch v => 0xD800 ≤ ch → ch ≠ 0xFFFD → 0x100 ≤ v) ?_ (by omega) h1 h2
    decide +kernel

theorem good_iso_8859_6 : Good iso_8859_6 where
  back := by
    rw [encode_iso_8859_6]; apply forall_byte; decide +kernel
  valid := by
    apply forall_byte; decide +kernel
  checks := by
    intro h; revert h; decide +kernel
  ascii := by
    rw [encode_iso_8859_6]; decide +kernel
  range := by
    apply forall_byte; decide +kernel
  fffd := by rw [encode_iso_8859_6]; decide +kernel
  big := by
    intro ch h1 h2
    rw [encode_iso_8859_6]
    dsimp only
    rw [if_neg (by omega)]
    refine pick_all (P := fun ch v => 0xD800 ≤ ch → ch ≠ 0xFFFD → 0x100 ≤ v) ?_ (by omega) h1 h2
    decide +kernel

theorem good_iso_8859_7 : Good iso_8859_7 where
  back := by
    rw [encode_iso_8859_7]; apply forall_byte; decide +kernel
  valid := by
    apply forall_byte; decide +kernel
  checks := by
    intro h; revert h; decide +kernel
  ascii := by
    rw [encode_iso_8859_7]; decide +kernel
  range := by
    apply forall_byte; decide +kernel
  fffd := by rw [encode_iso_8859_7]; decide +kernel
  big := by
    intro ch h1 h2
    rw [encode_iso_8859_7]
    dsimp only
    rw [if_neg (by omega)]
    refine pick_all (P := fun ch v => 0xD800 ≤ ch → ch ≠ 0xFFFD → 0x100 ≤ v) ?_ (by omega) h1 h2
    decide +kernel

theorem good_iso_8859_8 : Good iso_8859_8 where
  back := by
    rw [encode_iso_8859_8]; apply forall_byte; decide +kernel
  valid := by
    apply forall_byte; decide +kernel
  checks := by
    intro h; revert h; decide +kernel
  ascii := by
    rw [encode_iso_8859_8]; decide +kernel
  range := by
    apply forall_byte; decide +kernel
  fffd := by rw [encode_iso_8859_8]; decide +kernel
  big := by
    intro ch h1 h2
    rw [encode_iso_8859_8]
    dsimp only
    rw [if_neg (by omega)]
    refine pick_all (P := fun ch v => 0xD800 ≤ ch → ch ≠ 0xFFFD → 0x100 ≤ v) ?_ (by omega) h1 h2
    decide +kernel

theorem good_iso_8859_9 : Good iso_8859_9 where
  back := by
    apply forall_byte; decide +kernel
  valid := by
    apply forall_byte; decide +kernel
  checks := by decide +kernel
  ascii := by
    intro b hb
    revert hb; revert b
    decide +kernel
  range := by
    apply forall_byte; decide +kernel
  fffd := by decide +kernel
  big := by
    intro ch h1 h2
    simp only [iso_8859_9]
    rw [if_neg (by omega)]
    refine pick_all (P := fun ch v => 0xD800 ≤ ch → ch ≠ 0xFFFD → 0x100 ≤ v) ?_ (by omega) h1 h2
    decide +kernel

theorem good_iso_8859_10 : Good iso_8859_10 where
  back := by
    rw [encode_iso_8859_10]; apply forall_byte; decide +kernel
  valid := by
    apply forall_byte; decide +kernel
  checks := by
    intro h; revert h; decide +kernel
  ascii := by
    rw [encode_iso_8859_10]; decide +kernel
  range := by
    apply forall_byte; decide +kernel
  fffd := by rw [encode_iso_8859_10]; decide +kernel
  big := by
    intro ch h1 h2
    rw [encode_iso_8859_10]
    dsimp only
    rw [if_neg (by omega)]
    refine pick_all (P := fun ch v => 0xD800 ≤ ch → ch ≠ 0xFFFD → 0x100 ≤ v) ?_ (by omega) h1 h2
    decide +kernel

theorem good_iso_8859_11 : Good iso_8859_11 where
  back := by
    rw [encode_iso_8859_11]; apply forall_byte; decide +kernel
  valid := by
    apply forall_byte; decide +kernel
  checks := by
    intro h; revert h; decide +kernel
  ascii := by
    rw [encode_iso_8859_11]; decide +kernel
  range := by
    apply forall_byte; decide +kernel
  fffd := by rw [encode_iso_8859_11]; decide +kernel
  big := by
    intro ch h1 h2
    rw [encode_iso_8859_11]
    dsimp only
    rw [if_neg (by omega)]
    refine pick_all (P := fun ch v => 0xD800 ≤ ch → ch ≠ 0xFFFD → 0x100 ≤ v) ?_ (by omega) h1 h2
    decide +kernel

theorem good_iso_8859_13 : Good iso_8859_13 where
  back := by
    rw [encode_iso_8859_13]; apply forall_byte; decide +kernel
  valid := by
    apply forall_byte; decide +kernel
  checks := by
    intro h; revert h; decide +kernel
  ascii := by
    rw [encode_iso_8859_13]; decide +kernel
  range := by
    apply forall_byte; decide +kernel
  fffd := by rw [encode_iso_8859_13]; decide +kernel
  big := by
    intro ch h1 h2
    rw [encode_iso_8859_13]
    dsimp only
    rw [if_neg (by omega)]
    refine pick_all (P := fun ch v => 0xD800 ≤ ch → ch ≠ 0xFFFD → 0x100 ≤ v) ?_ (by omega) h1 h2
    decide +kernel

theorem good_iso_8859_14 : Good iso_8859_14 where
  back := by
    rw [encode_iso_8859_14]; apply forall_byte; decide +kernel
  valid := by
    apply forall_byte; decide +kernel
  checks := by
    intro h; revert h; decide +kernel
  ascii := by
    rw [encode_iso_8859_14]; decide +kernel
  range := by
    apply forall_byte; decide +kernel
  fffd := by rw [encode_iso_8859_14]; decide +kernel
  big := by
    intro ch h1 h2
    rw [encode_iso_8859_14]
    dsimp only
    rw [if_neg (by omega)]
    refine pick_all (P := fun ch v => 0xD800 ≤ ch → ch ≠ 0xFFFD → 0x100 ≤ v) ?_ (by omega) h1 h2
    decide +kernel

theorem good_iso_8859_15 : Good iso_8859_15 where
  back := by
    apply forall_byte; decide +kernel
  valid := by
    apply forall_byte; decide +kernel
  checks := by decide +kernel
  ascii := by
    intro b hb
    revert hb; revert b
    decide +kernel
  range := by
    apply forall_byte; decide +kernel
  fffd := by decide +kernel
  big := by
    intro ch h1 h2
    simp only [iso_8859_15]
    rw [if_neg (by omega)]
    refine pick_all (P := fun ch v => 0xD800 ≤ ch → ch ≠ 0xFFFD → 0x100 ≤ v) ?_ (by omega) h1 h2
    decide +kernel

theorem good_iso_8859_16 : Good iso_8859_16 where
  back := by
    rw [encode_iso_8859_16]; apply forall_byte; decide +kernel
  valid := by
    apply forall_byte; decide +kernel
  checks := by
    intro h; revert h; decide +kernel
  ascii := by
    rw [encode_iso_8859_16]; decide +kernel
  range := by
    apply forall_byte; decide +kernel
  fffd := by rw [encode_iso_8859_16]; decide +kernel
  big := by
    intro ch h1 h2
    rw [encode_iso_8859_16]
    dsimp only
    rw [if_neg (by omega)]
    refine pick_all (P := fun ch v => 0xD800 ≤ ch → ch ≠ 0xFFFD → 0x100 ≤ v) ?_ (by omega) h1 h2
    decide +kernel

theorem good_windows_1250 : Good windows_1250 where
  back := by
    rw [encode_windows_1250]; apply forall_byte; decide +kernel
  valid := by
    apply forall_byte; decide +kernel
  checks := by
    intro h; revert h; decide +kernel
  ascii := by
    rw [encode_windows_1250]; decide +kernel
  range := by
    apply forall_byte; decide +kernel
  fffd := by rw [encode_windows_1250]; decide +kernel
  big := by
    intro ch h1 h2
    rw [encode_windows_1250]
    dsimp only
    rw [if_neg (by omega)]
    refine pick_all (P := fun ch v => 0xD800 ≤ ch → ch ≠ 0xFFFD → 0x100 ≤ v) ?_ (by omega) h1 h2
    decide +kernel

theorem good_windows_1251 : Good windows_1251 where
  back := by
    rw [encode_windows_1251]; apply forall_byte; decide +kernel
  valid := by
    apply forall_byte; decide +kernel
  checks := by
    intro h; revert h; decide +kernel
  ascii := by
    rw [encode_windows_1251]; decide +kernel
  range := by
    apply forall_byte; decide +kernel
  fffd := by rw [encode_windows_1251]; decide +kernel
  big := by
    intro ch h1 h2
    rw [encode_windows_1251]
    dsimp only
    rw [if_neg (by omega)]
    refine pick_all (P := fun ch v => 0xD800 ≤ ch → ch ≠ 0xFFFD → 0x100 ≤ v) ?_ (by omega) h1 h2
    decide +kernel

theorem good_windows_1252 : Good windows_1252 where
  back := by
    apply forall_byte; decide +kernel
  valid := by
    apply forall_byte; decide +kernel
  checks := by decide +kernel
  ascii := by
    intro b hb
    revert hb; revert b
    decide +kernel
  range := by
    apply forall_byte; decide +kernel
  fffd := by decide +kernel
  big := by
    intro ch h1 h2
    simp only [windows_1252]
    rw [if_neg (by omega)]
    refine pick_all (P := fun ch v => 0xD800 ≤ ch → ch ≠ 0xFFFD → 0x100 ≤ v) ?_ (by omega) h1 h2
    decide +kernel

theorem good_windows_1253 : Good windows_1253 where
  back := by
    rw [encode_windows_1253]; apply forall_byte; decide +kernel
  valid := by
    apply forall_byte; decide +kernel
  checks := by
    intro h; revert h; decide +kernel
  ascii := by
    rw [encode_windows_1253]; decide +kernel
  range := by
    apply forall_byte; decide +kernel
  fffd := by rw [encode_windows_1253]; decide +kernel
  big := by
    intro ch h1 h2
    rw [encode_windows_1253]
    dsimp only
    rw [if_neg (by omega)]
    refine pick_all (P := fun ch v => 0xD800 ≤ ch → ch ≠ 0xFFFD → 0x100 ≤ v) ?_ (by omega) h1 h2
    decide +kernel

theorem good_windows_1254 : Good windows_1254 where
  back := by
    apply forall_byte; decide +kernel
  valid := by
    apply forall_byte; decide +kernel
  checks := by decide +kernel
  ascii := by
    intro b hb
    revert hb; revert b
    decide +kernel
  range := by
    apply forall_byte; decide +kernel
  fffd := by decide +kernel
  big := by
    intro ch h1 h2
    simp only [windows_1254]
    rw [if_neg (by omega), if_neg (by omega)]
    refine pick_all (P := fun ch v => 0xD800 ≤ ch → ch ≠ 0xFFFD → 0x100 ≤ v) ?_ (by omega) h1 h2
    decide +kernel

theorem good_windows_1255 : Good windows_1255 where
  back := by
    rw [encode_windows_1255]; apply forall_byte; decide +kernel
  valid := by
    apply forall_byte; decide +kernel
  checks := by
    intro h; revert h; decide +kernel
  ascii := by
    rw [encode_windows_1255]; decide +kernel
  range := by
    apply forall_byte; decide +kernel
  fffd := by rw [encode_windows_1255]; decide +kernel
  big := by
    intro ch h1 h2
    rw [encode_windows_1255]
    dsimp only
    rw [if_neg (by omega)]
    refine pick_all (P := fun ch v => 0xD800 ≤ ch → ch ≠ 0xFFFD → 0x100 ≤ v) ?_ (by omega) h1 h2
    decide +kernel

theorem good_windows_1256 : Good windows_1256 where
  back := by
    rw [encode_windows_1256]; apply forall_byte; decide +kernel
  valid := by
    apply forall_byte; decide +kernel
  checks := by
    intro h; revert h; decide +kernel
  ascii := by
    rw [encode_windows_1256]; decide +kernel
  range := by
    apply forall_byte; decide +kernel
  fffd := by rw [encode_windows_1256]; decide +kernel
  big := by
    intro ch h1 h2
    rw [encode_windows_1256]
    dsimp only
    rw [if_neg (by omega)]
    refine pick_all (P := fun ch v => 0xD800 ≤ ch → ch ≠ 0xFFFD → 0x100 ≤ v) ?_ (by omega) h1 h2
    decide +kernel

theorem good_windows_1257 : Good windows_1257 where
  back := by
    rw [encode_windows_1257]; apply forall_byte; decide +kernel
  valid := by
    apply forall_byte; decide +kernel
  checks := by
    intro h; revert h; decide +kernel
  ascii := by
    rw [encode_windows_1257]; decide +kernel
  range := by
    apply forall_byte; decide +kernel
  fffd := by rw [encode_windows_1257]; decide +kernel
  big := by
    intro ch h1 h2
    rw [encode_windows_1257]
    dsimp only
    rw [if_neg (by omega)]
    refine pick_all (P := fun ch v => 0xD800 ≤ ch → ch ≠ 0xFFFD → 0x100 ≤ v) ?_ (by omega) h1 h2
    decide +kernel

theorem good_windows_1258 : Good windows_1258 where
  back := by
    rw [encode_windows_1258]; apply forall_byte; decide +kernel
  valid := by
    apply forall_byte; decide +kernel
  checks := by
    intro h; revert h; decide +kernel
  ascii := by
    rw [encode_windows_1258]; decide +kernel
  range := by
    apply forall_byte; decide +kernel
  fffd := by rw [encode_windows_1258]; decide +kernel
  big := by
    intro ch h1 h2
    rw [encode_windows_1258]
    dsimp only
    rw [if_neg (by omega)]
    refine pick_all (P := fun ch v => 0xD800 ≤ ch → ch ≠ 0xFFFD → 0x100 ≤ v) ?_ (by omega) h1 h2
    decide +kernel

end Strf.Sbc
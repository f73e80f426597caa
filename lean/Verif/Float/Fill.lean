import Verif.Float.Sci
import Verif.IntPrinter.Props
/-
Lemmas: the sign and the fill characters.
-/
namespace Strf.Float
open Strf.Float.Spec hiding Notation
open Strf.IntDigits Strf.IntDigits.Spec Strf.Numpunct Strf.Numpunct.Spec Strf.Print
open Strf.IntPrinter (b2n b2i AlignFmt signChar printFill printFill_ok times_succ times_length)
open Strf.IntPrinter.Spec (Showsign Align Layout before times)
open Strf.Dest (Dest Lawful Prints)

variable {σ : Type} {D : Dest Nat σ} {Rep : σ → List Nat → Prop} {C : Charset σ}

/-- the sign of the number and of the format -/
structure SignOk (sign : Showsign) (neg : Bool) (d : Data) : Prop where
  char : d.sign = if neg then 0x2D else signChar sign
  shown : d.showsign = (neg || decide (sign ≠ .negativeOnly))

theorem SignOk.columns {sign : Showsign} {neg : Bool} {d : Data} (h : SignOk sign neg d) :
    (leaderColumns sign neg : Int) = b2i d.showsign := by
  rw [h.shown]
  cases neg <;> cases sign <;> rfl

/-- the members that the fill part does not change -/
structure Same (d d' : Data) : Prop where
  form : d'.form = d.form
  sign : d'.sign = d.sign
  showpoint : d'.showpoint = d.showpoint
  subnormal : d'.subnormal = d.subnormal
  extra : d'.extra = d.extra
  digcount : d'.digcount = d.digcount
  sep : d'.sep = d.sep
  fill : d'.fill = d.fill
  m : d'.m = d.m
  e : d'.e = d.e

theorem putSign_prints (L : Lawful D Rep) (d : Data) : Prints τ D Rep (putSign D d) (if d.showsign then [d.sign] else []) := by
  by_cases h : d.showsign = true
  · rw [if_pos h]
    refine prints_congr (L.prints_put (τ := τ) d.sign) fun s => ?_
    unfold putSign; rw [if_pos h]
  · rw [if_neg h]
    refine prints_congr Prints.nil fun s => ?_
    unfold putSign; rw [if_neg h]

theorem initFill_eq (d : Data) (width : Int) (content : Nat) (al : Align) (hc : (content : Int) ≤ 2147483647) :
    initFill d width content al =
      let n := (width - content).toNat
      let d := { d with left := before al n, right := (n - before al n : Nat) }
      some (if d.sign = 0x20 ∧ (0 < n ∨ d.fill ≠ 0x20) then adaptFillSign d content n else (d, ⟨content, n⟩)) := by
  unfold initFill
  rw [if_neg (by omega)]
  dsimp only
  by_cases hw : width ≤ content
  · rw [if_pos hw]
    have hn : (width - (content : Int)).toNat = 0 := by omega
    have hb : before al 0 = 0 := by cases al <;> rfl
    rw [hn, hb]
    simp only [Nat.lt_irrefl, false_or]
    split_ifs <;> rfl
  · rw [if_neg hw]
    have hn : width - (content : Int) = ((width - (content : Int)).toNat : Nat) := by omega
    generalize (width - (content : Int)).toNat = n at hn ⊢
    rw [hn]
    have h0 : 0 < n := by omega
    simp only [h0, true_or, and_true]
    have hsg : ∀ l r, ({ d with left := l, right := r } : Data).sign = d.sign := fun _ _ => rfl
    cases al with
    | left => dsimp only [before]; simp only [Nat.sub_zero]; split_ifs <;> rfl
    | right => dsimp only [before]; simp only [Nat.sub_self]; split_ifs <;> rfl
    | center =>
      dsimp only [before]
      rw [show (n : Int) / 2 = ((n / 2 : Nat) : Int) by omega, show ((n / 2 : Nat) : Int) + (n : Int) % 2 = ((n - n / 2 : Nat) : Int) by omega]
      split_ifs <;> rfl

/-- what the fill part computes -/
structure Filled (C : Charset σ) (D : Dest Nat σ) (Rep : σ → List Nat → Prop) (sign : Showsign) (neg : Bool) (w : Int)
    (al : Align) (content : Nat) (d d' : Data) (r : Res) : Prop where
  same : Same d d'
  zeros : ∀ x : Int, 0 ≤ x → (d'.pad0 - (d'.sub + x)).toNat = (d.pad0 - (d.sub + x)).toNat
  sub : d'.sub - b2i d'.showsign = d.sub - b2i d.showsign
  lead : Prints true D Rep (fun s => (printFill C d'.left d'.fill s).bind (putSign D d'))
    (times C.encodeChar (before al (w - content).toNat) d.fill ++ leader C.encodeChar sign d.fill neg)
  right : d'.right.toNat = (w - content).toNat - before al (w - content).toNat
  width : r.fillcount + r.content = max (content : Int) w
  size : r.content + fillSize C d.fill r.fillcount = (content - leaderColumns sign neg + (leader C.encodeChar sign d.fill neg).length +
    (w - content).toNat * (C.encodeChar d.fill).length : Nat)
  signed : d'.showsign = true → [d'.sign] = leader C.encodeChar sign d.fill neg
  nosign : d'.showsign = false → sign = .fillInstead ∧ neg = false ∨ leader C.encodeChar sign d.fill neg = []
  left : d'.left.toNat + b2n d'.showsign = before al (w - content).toNat + leaderColumns sign neg

theorem fill_ok (L : Lawful D Rep) (HC : C.Lawful D Rep) (sign : Showsign) (neg : Bool) (width : Int) (al : Align) (content : Nat)
    (d : Data) (hs : SignOk sign neg d) (hc : (content : Int) ≤ 2147483647) (hl : leaderColumns sign neg ≤ content)
    (hsub : (leaderColumns sign neg : Int) ≤ d.sub) :
    ∃ d' r, initFill d width content al = some (d', r) ∧ Filled C D Rep sign neg width al content d d' r := by
  rw [initFill_eq d width content al hc]
  dsimp only
  have hcol := hs.columns
  generalize hn : (width - (content : Int)).toNat = n
  have hsize := HC.size d.fill
  by_cases ha : d.sign = 0x20 ∧ (0 < n ∨ d.fill ≠ 0x20)
  · have hfs : sign = .fillInstead ∧ neg = false := by
      have := ha.1
      rw [hs.char] at this
      cases neg <;> cases sign <;> simp [signChar] at this ⊢
    have hsh : d.showsign = true := by rw [hs.shown, hfs.1]; cases neg <;> rfl
    have hlead : leader C.encodeChar sign d.fill neg = C.encodeChar d.fill := by rw [hfs.1, hfs.2]; rfl
    have hlc : leaderColumns sign neg = 1 := by rw [hfs.1, hfs.2]; rfl
    refine ⟨_, _, by rw [if_pos ha, adaptFillSign], ?_⟩
    refine ⟨⟨rfl, rfl, rfl, rfl, rfl, rfl, rfl, rfl, rfl, rfl⟩, ?_, ?_, ?_, ?_, ?_, ?_, ?_, ?_, ?_⟩
    · intro x hx; dsimp only; split_ifs <;> omega
    · dsimp only; rw [hsh]; show d.sub - 1 - 0 = d.sub - 1; omega
    · dsimp only
      have := Prints.comp (τ := true) (printFill_ok (τ := true) HC ((before al n : Int) + 1) d.fill) (Prints.nil (τ := true) (D := D) (Rep := Rep))
      rw [List.append_nil, show ((before al n : Int) + 1).toNat = before al n + 1 by omega, times_succ] at this
      rw [hlead]
      rw [hn]
      exact this
    · dsimp only; rw [hn, Int.toNat_natCast]
    · dsimp only; omega
    · dsimp only
      unfold fillSize
      rw [if_pos (by omega), hsize, hlead, hlc, hn]
      rw [hlc] at hl
      push_cast [Nat.cast_sub hl]
      ring
    · intro h; exact absurd h (by simp)
    · intro _; exact .inl hfs
    · dsimp only; rw [hlc, hn]; show ((before al n : Int) + 1).toNat + 0 = _; omega
  · refine ⟨_, _, by rw [if_neg ha], ?_⟩
    have hlead : (if d.showsign then [d.sign] else []) = leader C.encodeChar sign d.fill neg := by
      rw [hs.shown, hs.char]
      by_cases hfs : sign = .fillInstead ∧ neg = false
      · have h20 : d.fill = 0x20 := by
          have : d.sign = 0x20 := by rw [hs.char, hfs.1, hfs.2]; rfl
          simp only [this, true_and, not_or, not_not] at ha
          exact ha.2
        rw [hfs.1, hfs.2, h20]
        show [0x20] = C.encodeChar 0x20
        rw [HC.ascii 0x20 (by decide)]
      · cases neg <;> cases sign <;> first | rfl | exact absurd ⟨rfl, rfl⟩ hfs
    have hll : (leader C.encodeChar sign d.fill neg).length = leaderColumns sign neg := by
      rw [← hlead]
      zify
      rw [hcol]
      cases d.showsign <;> rfl
    refine ⟨⟨rfl, rfl, rfl, rfl, rfl, rfl, rfl, rfl, rfl, rfl⟩, ?_, rfl, ?_, ?_, ?_, ?_, ?_, ?_, ?_⟩
    · intro x _; rfl
    · dsimp only
      have := Prints.comp (τ := true) (printFill_ok (τ := true) HC (before al n : Int) d.fill) (putSign_prints (τ := true) L { d with left := before al n, right := (n - before al n : Nat) })
      rw [Int.toNat_natCast, hlead] at this
      rw [hn]
      exact this
    · dsimp only; rw [hn, Int.toNat_natCast]
    · dsimp only; omega
    · dsimp only
      unfold fillSize
      rw [hll, hn, hsize]
      split_ifs with h
      · rw [show content - leaderColumns sign neg + leaderColumns sign neg = content by omega]
        push_cast; ring
      · rw [show n = 0 by omega]
        rw [show content - leaderColumns sign neg + leaderColumns sign neg = content by omega]
        simp
    · intro h; dsimp only at h ⊢; rw [← hlead, if_pos h]
    · intro h; dsimp only at h ⊢; right; rw [← hlead, if_neg (by simp [h])]
    · dsimp only
      rw [hn, Int.toNat_natCast]
      have : (b2n d.showsign : Int) = b2i d.showsign := by cases d.showsign <;> rfl
      omega

/-- the whole text, from its parts -/
theorem filled_prints (HC : C.Lawful D Rep) (L : Lawful D Rep) {sign : Showsign} {neg : Bool} {lay : Layout} {content : Nat} {d d' : Data} {r : Res}
    (h : Filled C D Rep sign neg lay.columns lay.align content d d' r) (hfill : d.fill = lay.fill) (f : σ → Option σ) (txt : List Nat) (cols : Nat)
    (hf : Prints τ D Rep f txt) (hsub : d.sub = (leaderColumns sign neg + cols : Nat)) (hcont : (content : Int) = max d.sub d.pad0) :
    Prints τ D Rep (fun s => (printFill C d'.left d'.fill s).bind fun s => ((signZeros D d' s).bind f).bind fun s =>
        printFill C d'.right d'.fill s)
      (arranged C.encodeChar sign d.pad0 lay neg [] txt cols) := by
  have hz := h.zeros 0 (by omega)
  simp only [Int.add_zero] at hz
  have := Prints.comp h.lead.any (Prints.comp (L.prints_fill (τ := τ) (d'.pad0 - d'.sub) 0x30) (Prints.comp hf (printFill_ok HC d'.right d'.fill)))
  rw [hz, h.right, h.same.fill, hfill] at this
  have e1 : (d.pad0 - d.sub).toNat = (d.pad0 - (leaderColumns sign neg + cols : Nat)).toNat := by rw [hsub]
  have e2 : content = leaderColumns sign neg + cols + (d.pad0 - (leaderColumns sign neg + cols : Nat)).toNat := by omega
  unfold arranged
  dsimp only
  rw [List.length_nil, Nat.add_zero, ← e2]
  rw [e1] at this
  refine prints_congr (by simpa [List.append_assoc] using this) fun s => ?_
  unfold signZeros
  rw [h.same.fill, hfill]
  simp only [Option.bind_assoc]

/-- the width and the size -/
theorem filled_pre (HC : C.Lawful D Rep) {sign : Showsign} {neg : Bool} {lay : Layout} {content : Nat} {d d' : Data} {r : Res}
    (h : Filled C D Rep sign neg lay.columns lay.align content d d' r) (hfill : d.fill = lay.fill) (txt : List Nat) (cols : Nat)
    (hsub : d.sub = (leaderColumns sign neg + cols : Nat)) (hcont : (content : Int) = max d.sub d.pad0) :
    r.fillcount + r.content = arrangedWidth sign d.pad0 lay neg [] cols ∧
    r.content + fillSize C d'.fill r.fillcount + txt.length = (arranged C.encodeChar sign d.pad0 lay neg [] txt cols).length + cols := by
  have e2 : content = leaderColumns sign neg + cols + (d.pad0 - (leaderColumns sign neg + cols : Nat)).toNat := by omega
  constructor
  · rw [h.width]
    unfold arrangedWidth
    rw [List.length_nil, Nat.add_zero]
    push_cast
    omega
  · rw [h.same.fill, h.size]
    unfold arranged
    dsimp only
    rw [List.length_nil, Nat.add_zero, ← e2]
    simp only [List.length_append, times_length, List.length_replicate, List.length_nil]
    rw [hfill]
    have hb : before lay.align (lay.columns - (content : Int)).toNat ≤ (lay.columns - (content : Int)).toNat := by
      cases lay.align <;> simp only [before] <;> omega
    generalize hN : (lay.columns - (content : Int)).toNat = n at hb ⊢
    have : n * (C.encodeChar lay.fill).length =
        before lay.align n * (C.encodeChar lay.fill).length + (n - before lay.align n) * (C.encodeChar lay.fill).length := by
      rw [← Nat.add_mul]; congr 1; omega
    rw [this]
    push_cast
    omega

end Strf.Float

import Verif.Print.Item
import Verif.IntPrinter.Model
/-!
# Model of joins: include/strf/detail/printable_types/join.hpp
-/
namespace Strf.Print
open Strf.Width
open Strf.IntPrinter (AlignFmt)
open Strf.Dest (Dest Lawful Prints)

variable {σ : Type}

/-- printers_tuple.hpp 141–144, 150–152: the call operator of a printers_tuple is call_printers -/
def tuplePrint (D : Dest Nat σ) (prs : List (σ → Option σ)) (s : σ) : Option σ := callAll D prs s

/-- join.hpp 123–179, 193–202 strf::join: with premeasurements the printers are made at once; without, the arguments are kept
and printed with print_printables. -/
def join (D : Dest Nat σ) (its : List (Item σ)) : Item σ where
  make p :=
    if p.size = none ∧ p.acc = none then some (p, printAll D its)
    else (makeAll its p).map fun r => (r.1, tuplePrint D r.2)

/-- join.hpp 81–107 aligned_join_printer::operator() (and, with the string in the place of the tuple, the aligned string
printers) -/
def alignedPrint (C : Charset σ) (a : AlignFmt) (fillcount : Int) (content : σ → Option σ) (s : σ) : Option σ :=
  if fillcount ≤ 0 then content s
  else match a.align with
    | .left => (content s).bind fun s => C.encodeFill s fillcount a.fill
    | .right => (C.encodeFill s fillcount a.fill).bind content
    | .center =>
      (C.encodeFill s (fillcount / 2) a.fill).bind fun s =>
      (content s).bind fun s => C.encodeFill s (fillcount - fillcount / 2) a.fill

/-- join.hpp 223–229, 262–268: the sizes added to the premeasurements -/
def addFilledSize (C : Charset σ) (a : AlignFmt) (fillcount : Int) (sub p : Pre) : Pre :=
  let p := p.addSize (sub.size.getD 0)
  if fillcount > 0 then p.addSize (fillcount.toNat * C.charSize a.fill) else p

/-- join.hpp 245–250: wmax and wdiff -/
def joinLimits (a : AlignFmt) (p : Pre) : Option (Int × Int) :=
  (p.remainingGreater a.width).bind fun g =>
    if g then p.remaining.bind fun wmax' => (Width.sub wmax' a.width).map fun wdiff => (wmax', wdiff)
    else some (a.width, 0)

/-- join.hpp 256–259 the fill count -/
def joinFill (sub : Pre) (wdiff : Int) : Option Int :=
  (sub.remainingGreater wdiff).bind fun g =>
    if g then sub.remaining.bind fun r => (Width.sub r wdiff).map Width.round else some 0

/-- join.hpp 204–231 make_printer of an aligned join when no width is demanded -/
def joinNoWidth (D : Dest Nat σ) (C : Charset σ) (a : AlignFmt) (its : List (Item σ)) (p : Pre) :
    Option (Pre × (σ → Option σ)) :=
  (makeAll its ⟨p.size.map (fun _ => 0), some (.init a.width)⟩).bind fun r =>
  (r.1.remaining).bind fun rem =>
  some (addFilledSize C a (Width.round rem) r.1 p, alignedPrint C a (Width.round rem) (tuplePrint D r.2))

/-- join.hpp 233–270 make_printer of an aligned join when the width is demanded -/
def joinWidth (D : Dest Nat σ) (C : Charset σ) (a : AlignFmt) (its : List (Item σ)) (p : Pre) :
    Option (Pre × (σ → Option σ)) :=
  (joinLimits a p).bind fun lim =>
  (makeAll its ⟨p.size.map (fun _ => 0), some (.init lim.1)⟩).bind fun r =>
  (joinFill r.1 lim.2).bind fun n =>
  (Width.satAddI32 lim.1 n).bind fun x =>
  (r.1.remaining).bind fun rem =>
  (Width.satSub x rem).bind fun w =>
  (p.addWidth w).map fun p =>
    (addFilledSize C a n r.1 p, alignedPrint C a n (tuplePrint D r.2))

/-- join.hpp 204–270, 303–365: strf::join_align(…)(…), strf::join_left, join_right, join_center, or strf::join(…) with an alignment format -/
def alignedJoin (D : Dest Nat σ) (C : Charset σ) (a : AlignFmt) (its : List (Item σ)) : Item σ where
  make p := match p.acc with
    | none => joinNoWidth D C a its p
    | some _ => joinWidth D C a its p

/-! ## Specification -/

/-- the fill characters needed to reach the width `width` from the width `w` -/
def FillCount (width w : Int) (n : Nat) : Prop := if w < width then WidthSpec.IsRound (width - w) n else n = 0

instance (width w : Int) (n : Nat) : Decidable (FillCount width w n) := by
  unfold FillCount WidthSpec.IsRound; infer_instance

/-- the text with `n` fill characters around -/
def padded (enc : Nat → List Nat) (a : AlignFmt) (n : Nat) (text : List Nat) : List Nat :=
  IntPrinter.Spec.times enc (IntPrinter.Spec.before a.align n) a.fill ++ text ++
    IntPrinter.Spec.times enc (n - IntPrinter.Spec.before a.align n) a.fill

/-- the meaning of an aligned text with `n` fill characters -/
def Meaning.pad (m : Meaning) (enc : Nat → List Nat) (a : AlignFmt) (n : Nat) : Meaning :=
  ⟨padded enc a n m.text, m.width + n * 65536, max a.width (m.width + n * 65536), a.width + 32768⟩

variable {D : Dest Nat σ} {Rep : σ → List Nat → Prop} {C : Charset σ}

theorem padded_length (HC : C.Lawful D Rep) (a : AlignFmt) (n : Nat) (t : List Nat) :
    (padded C.encodeChar a n t).length = t.length + n * C.charSize a.fill := by
  unfold padded IntPrinter.Spec.times
  have hb : IntPrinter.Spec.before a.align n ≤ n := by cases a.align <;> simp only [IntPrinter.Spec.before] <;> omega
  generalize IntPrinter.Spec.before a.align n = b at hb
  obtain ⟨c, rfl⟩ := Nat.exists_eq_add_of_le hb
  have hf : ∀ k, (List.replicate k (C.encodeChar a.fill)).flatten.length = k * C.charSize a.fill := by
    intro k; rw [HC.size]; simp
  simp only [List.length_append, hf, Nat.add_sub_cancel_left, Nat.add_mul]
  omega

theorem alignedPrint_prints (HC : C.Lawful D Rep) (a : AlignFmt) (n : Nat) {content : σ → Option σ} {t : List Nat}
    (h : Prints τ D Rep content t) : Prints τ D Rep (alignedPrint C a n content) (padded C.encodeChar a n t) := by
  intro s u hr
  unfold alignedPrint padded
  by_cases h0 : (n : Int) ≤ 0
  · rw [if_pos h0]
    have : n = 0 := by omega
    subst this
    have : IntPrinter.Spec.before a.align 0 = 0 := by cases a.align <;> rfl
    rw [this]
    simpa [IntPrinter.Spec.times] using h s u hr
  · rw [if_neg h0]
    have hf : ∀ k : Nat, Prints τ D Rep (fun s => C.encodeFill s k a.fill) (IntPrinter.Spec.times C.encodeChar k a.fill) := by
      intro k; have := HC.fill (τ := τ) k a.fill (by omega); simpa [IntPrinter.Spec.times] using this
    cases a.align with
    | left =>
      have := Prints.comp h (hf n) s u hr
      simpa [IntPrinter.Spec.before, IntPrinter.Spec.times] using this
    | right =>
      have := Prints.comp (hf n) h s u hr
      simpa [IntPrinter.Spec.before, IntPrinter.Spec.times] using this
    | center =>
      have h1 := hf (n / 2)
      have h2 := hf (n - n / 2)
      have e1 : ((n / 2 : Nat) : Int) = (n : Int) / 2 := by omega
      have e2 : ((n - n / 2 : Nat) : Int) = (n : Int) - (n : Int) / 2 := by omega
      rw [e1] at h1
      rw [e2] at h2
      have := Prints.comp h1 (Prints.comp h h2) s u hr
      simpa only [IntPrinter.Spec.before, List.append_assoc] using this

theorem join_means (L : Lawful D Rep) {B : Int} {its : List (Item σ)} {ms : List Meaning} (h : AllMean τ D Rep B its ms) :
    (join D its).Means τ D Rep B (total ms) := by
  refine ⟨h.nonneg.1, h.nonneg.2.1, h.nonneg.2.2, ?_⟩
  intro p hp
  obtain ⟨p', prs, e, hpr, g⟩ := h.make L p hp
  unfold join
  dsimp only
  by_cases hn : p.size = none ∧ p.acc = none
  · rw [if_pos hn]
    refine ⟨p, _, rfl, h.prints L, by simp [hn.1], fun _ => hn.2, ?_⟩
    intro a ha; rw [hn.2] at ha; cases ha
  · rw [if_neg hn, e]
    exact ⟨p', _, rfl, hpr, g⟩

theorem addFilledSize_size (a : AlignFmt) (n : Nat) (sub p : Pre) (k : Nat) (hs : sub.size = p.size.map (fun _ => k)) :
    (addFilledSize C a n sub p).size = p.size.map (· + (k + n * C.charSize a.fill)) := by
  unfold addFilledSize
  dsimp only
  rw [hs]
  have hcn : ((n : Int)).toNat = n := by omega
  cases hp : p.size with
  | none => split <;> simp [Pre.addSize, hp]
  | some z =>
    split
    · simp [Pre.addSize, hp, hcn]; omega
    · have : n = 0 := by omega
      subst this; simp [Pre.addSize, hp]

theorem addFilledSize_acc (a : AlignFmt) (n : Int) (sub p : Pre) : (addFilledSize C a n sub p).acc = p.acc := by
  unfold addFilledSize; dsimp only; split <;> rfl

theorem round_nonneg (v : Int) (hv : CInt.InI32 v) (h0 : 0 ≤ v) : 0 ≤ Width.round v ∧ Width.round v ≤ v / 65536 + 1 := by
  have := Width.round_correct v hv
  unfold WidthSpec.IsRound at this
  omega

theorem fillCount_unique {width w : Int} {n : Nat} (h : FillCount width w n) :
    (w < width → ∀ r, WidthSpec.IsRound (width - w) r → r = n) ∧ (width ≤ w → n = 0) := by
  unfold FillCount at h
  constructor
  · intro hlt r hr
    rw [if_pos hlt] at h
    unfold WidthSpec.IsRound at h hr
    omega
  · intro hle; rw [if_neg (by omega)] at h; exact h

/-- an aligned join when no width is demanded -/
theorem alignedJoin_noWidth (L : Lawful D Rep) (HC : C.Lawful D Rep) {its : List (Item σ)} {ms : List Meaning}
    (a : AlignFmt) (n : Nat) (ha : CInt.InI32 a.width)
    (h : AllMean τ D Rep a.width its ms) (hroom : (total ms).room ≤ wmax ∨ max 0 a.width + (total ms).cost ≤ wmax)
    (hn : FillCount a.width (total ms).width n) (p : Pre) (hacc : p.acc = none) :
    ∃ p' pr, (alignedJoin D C a its).make p = some (p', pr) ∧ Prints τ D Rep pr (padded C.encodeChar a n (total ms).text) ∧
      p' = p.addSize (padded C.encodeChar a n (total ms).text).length := by
  obtain ⟨hw0, hwr, hc0⟩ := h.nonneg
  have ha' := ha
  unfold CInt.InI32 at ha'
  have hwm : wmax = 2147483647 := rfl
  obtain ⟨hu1, hu2⟩ := fillCount_unique hn
  unfold alignedJoin
  dsimp only
  rw [hacc]
  dsimp only
  unfold joinNoWidth
  obtain ⟨q, prs, e, hpr, g1, _, g3⟩ := h.make L ⟨p.size.map (fun _ => 0), some (.init a.width)⟩ (by
    intro x hx; cases hx
    refine ⟨⟨by simp [Acc.init], by simp [Acc.init, wmax], ?_⟩, ?_, ?_⟩
    · exact ha
    · simp [Acc.init]
    · simp only [Acc.init]; omega)
  obtain ⟨x, hx, gl, ga, gb, gb', gc, gd⟩ := g3 _ rfl
  simp only [Acc.init] at gl ga gb gb' gc gd
  rw [e]
  simp only [Option.bind_some]
  have hrem : q.remaining = some (if (total ms).width < a.width then a.width - (total ms).width else 0) := by
    unfold Pre.remaining Acc.remaining
    rw [hx]
    dsimp only
    rw [gl]
    by_cases hlt : (total ms).width < a.width
    · have := gc (by omega)
      rw [if_pos (by omega), if_pos hlt, this]
      unfold Width.sub CInt.chk32
      rw [if_pos (by omega)]
      simp
    · have := gd (by omega)
      rw [if_neg hlt]
      by_cases hle : x.width ≤ a.width
      · have : x.width = a.width := by omega
        rw [if_pos hle, this]
        simp [Width.sub, CInt.chk32]
      · rw [if_neg hle]
  rw [hrem]
  simp only [Option.bind_some]
  have hround : Width.round (if (total ms).width < a.width then a.width - (total ms).width else 0) = (n : Int) := by
    by_cases hlt : (total ms).width < a.width
    · rw [if_pos hlt]
      exact hu1 hlt _ (Width.round_correct _ (by unfold CInt.InI32; omega))
    · rw [if_neg hlt, hu2 (by omega)]; decide
  rw [hround]
  refine ⟨_, _, rfl, alignedPrint_prints HC a n hpr, ?_⟩
  have h1 := addFilledSize_size (C := C) a n q p (total ms).text.length (by rw [g1]; cases p.size <;> simp)
  have h2 := addFilledSize_acc (C := C) a n q p
  have : ∀ x y : Pre, x.size = y.size → x.acc = y.acc → x = y := by rintro ⟨_, _⟩ ⟨_, _⟩ h1 h2; cases h1; cases h2; rfl
  apply this
  · rw [h1, padded_length HC]; rfl
  · rw [h2]; rfl

/-- an aligned join -/
theorem alignedJoin_means (L : Lawful D Rep) (HC : C.Lawful D Rep) {B : Int} {its : List (Item σ)} {ms : List Meaning}
    (a : AlignFmt) (n : Nat) (ha : 0 ≤ a.width) (haw : a.width ≤ wmax)
    (h : AllMean τ D Rep (max B a.width) its ms)
    (hroom : (total ms).room ≤ wmax ∨ max B a.width + (total ms).cost ≤ wmax)
    (hn : FillCount a.width (total ms).width n) (hlim : max B a.width + n * 65536 ≤ wmax)
    (hover : B + min (total ms).width (max B a.width + (total ms).cost) - a.width ≤ wmax) :
    (alignedJoin D C a its).Means τ D Rep B ((total ms).pad C.encodeChar a n) := by
  obtain ⟨hw0, hwr, hc0⟩ := h.nonneg
  refine ⟨by simp only [Meaning.pad]; omega, by simp only [Meaning.pad]; omega, by simp only [Meaning.pad]; omega, ?_⟩
  intro p hp
  have hwm : wmax = 2147483647 := rfl
  obtain ⟨hu1, hu2⟩ := fillCount_unique hn
  unfold alignedJoin
  dsimp only
  cases hacc : p.acc with
  | none =>
    dsimp only
    obtain ⟨p', pr, e, hpr, hp'⟩ := alignedJoin_noWidth L HC a n ⟨by omega, by omega⟩ (h.mono (by omega)) (by omega) hn p hacc
    unfold alignedJoin at e
    dsimp only at e
    rw [hacc] at e
    refine ⟨p', pr, e, hpr, by rw [hp']; rfl, fun _ => by rw [hp']; exact hacc, ?_⟩
    intro y hy; rw [hacc] at hy; cases hy
  | some b =>
    dsimp only
    unfold joinWidth
    obtain ⟨⟨hb1, hb2, hb3⟩, hb4, hb5⟩ := hp b hacc
    unfold CInt.InI32 at hb3
    simp only [Meaning.pad] at hb5
    have hnb : n = 0 ∨ ((total ms).width < a.width ∧ (total ms).width + n * 65536 ≤ a.width + 32768) := by
      unfold FillCount WidthSpec.IsRound at hn; split at hn <;> omega
    have hlims : joinLimits a p = some (if b.width + a.width < b.limit then (b.limit - b.width, b.limit - b.width - a.width)
        else (a.width, 0)) := by
      unfold joinLimits Pre.remainingGreater Pre.remaining
      rw [hacc]
      simp only [Acc.remainingGreater, Width.add, CInt.chk32]
      rw [if_pos (by omega)]
      simp only [Option.map_some, Option.bind_some, decide_eq_true_eq]
      by_cases hlt : b.width + a.width < b.limit
      · rw [if_pos hlt, if_pos hlt]
        unfold Acc.remaining Width.sub CInt.chk32
        rw [if_pos (by omega), if_pos (by omega)]
        simp only [Option.bind_some]
        rw [if_pos (by omega)]
        rfl
      · rw [if_neg hlt, if_neg hlt]
    obtain ⟨M, d, hMd, hdef⟩ : ∃ M d, joinLimits a p = some (M, d) ∧
        ((b.width + a.width < b.limit ∧ M = b.limit - b.width ∧ d = M - a.width) ∨
          (b.limit ≤ b.width + a.width ∧ M = a.width ∧ d = 0)) := by
      rw [hlims]
      by_cases hlt : b.width + a.width < b.limit
      · rw [if_pos hlt]; exact ⟨_, _, rfl, .inl ⟨hlt, rfl, rfl⟩⟩
      · rw [if_neg hlt]; exact ⟨_, _, rfl, .inr ⟨by omega, rfl, rfl⟩⟩
    rw [hMd]
    simp only [Option.bind_some]
    have hMB : 0 ≤ M ∧ M ≤ max B a.width ∧ 0 ≤ d ∧ d = M - a.width := by omega
    obtain ⟨q, prs, e, hpr, g1, _, g3⟩ := h.make L ⟨p.size.map (fun _ => 0), some (.init M)⟩ (by
      intro x hx; cases hx
      refine ⟨⟨by simp [Acc.init], by simp [Acc.init, wmax], ?_⟩, ?_, ?_⟩
      · simp [Acc.init, CInt.InI32]; omega
      · simp only [Acc.init]; omega
      · simp only [Acc.init]; omega)
    obtain ⟨x, hx, gl, ga, gb, gb', gc, gd⟩ := g3 _ rfl
    simp only [Acc.init] at gl ga gb gb' gc gd
    rw [e]
    simp only [Option.bind_some]
    have hrem : q.remaining = some (if x.width ≤ M then M - x.width else 0) := by
      unfold Pre.remaining Acc.remaining
      rw [hx]
      dsimp only
      rw [gl]
      by_cases hle : x.width ≤ M
      · rw [if_pos hle, if_pos hle]
        unfold Width.sub CInt.chk32
        rw [if_pos (by omega)]
      · rw [if_neg hle, if_neg hle]
    have hfill : joinFill q d = some (n : Int) := by
      unfold joinFill
      rw [hrem]
      unfold Pre.remainingGreater
      rw [hx]
      simp only [Acc.remainingGreater, Width.add, CInt.chk32, gl]
      rw [if_pos (by omega)]
      simp only [Option.map_some, Option.bind_some, decide_eq_true_eq]
      by_cases hlt : x.width + d < M
      · have hxw : x.width = 0 + (total ms).width := by
          by_cases hh : 0 + (total ms).width ≤ M
          · exact gc hh
          · have := gd (by omega); omega
        rw [if_pos hlt, if_pos (by omega)]
        unfold Width.sub CInt.chk32
        rw [if_pos (by omega)]
        simp only [Option.map_some, Option.some.injEq]
        refine hu1 (by omega) _ ?_
        have : M - x.width - d = a.width - (total ms).width := by omega
        rw [this]
        exact Width.round_correct _ (by unfold CInt.InI32; omega)
      · rw [if_neg hlt, hu2 (by omega)]; rfl
    rw [hfill]
    simp only [Option.bind_some]
    rw [Width.satAddI32_exact M n (by unfold CInt.InI32; omega) (by unfold CInt.InI32; omega)]
    simp only [Option.bind_some, hrem]
    have hclamp : WidthSpec.clamp (M + n * 65536) = M + n * 65536 := by unfold WidthSpec.clamp; omega
    rw [hclamp]
    rw [Width.satSub_exact _ _ (by unfold CInt.InI32; omega) (by unfold CInt.InI32; split <;> omega)]
    simp only [Option.bind_some]
    have hadd : ∃ w, WidthSpec.clamp (M + ↑n * 65536 - (if x.width ≤ M then M - x.width else 0)) = w ∧
        w = (if x.width ≤ M then x.width else M) + n * 65536 := by
      refine ⟨_, rfl, ?_⟩
      unfold WidthSpec.clamp
      split <;> omega
    obtain ⟨w, hw1, hw2⟩ := hadd
    rw [hw1]
    have hwle : w ≤ (total ms).width + n * 65536 ∧ 0 ≤ w ∧ b.width + w ≤ max b.width b.limit + (a.width + 32768) := by
      split at hw2 <;> omega
    unfold Pre.addWidth
    rw [hacc]
    simp only [Acc.addWidth, Width.add, CInt.chk32]
    rw [if_pos (by omega)]
    simp only [Option.map_some]
    refine ⟨_, _, rfl, alignedPrint_prints HC a n hpr, ?_, ?_, ?_⟩
    · rw [addFilledSize_size a n q _ (total ms).text.length (by rw [g1]; cases p.size <;> simp)]
      simp only [Meaning.pad, padded_length HC]
    · intro hc; rw [hacc] at hc; cases hc
    · intro y hy
      rw [hacc] at hy; cases hy
      rw [addFilledSize_acc]
      refine ⟨_, rfl, rfl, by dsimp only; omega, by simp only [Meaning.pad]; omega, ?_, ?_, ?_⟩
      · simp only [Meaning.pad]; split at hw2 <;> omega
      · intro hh
        simp only [Meaning.pad] at hh ⊢
        split at hw2 <;> omega
      · intro hh
        simp only [Meaning.pad] at hh ⊢
        split at hw2 <;> omega

end Strf.Print

import Verif.Print.StringProps
/-!
# Model of the character printers: include/strf/detail/printable_types/char.hpp

Simplifications: the count of `multi`, a size_t, is given as the ptrdiff_t it is converted to (scount()); writing a negative
number of characters is undefined behaviour (`none`).
-/
namespace Strf.Print
open Strf.Width
open Strf.IntPrinter (AlignFmt)
open Strf.Dest (Dest Lawful Prints)

variable {σ : Type}

/-- char.hpp 18–23 char_printer::operator() -/
def charPrint (D : Dest Nat σ) (ch : Nat) (s : σ) : Option σ := D.poke (Dest.ensure D s 1) [ch]

/-- char.hpp 289–308 make_printer of a character without format: `width` is char_width of the width calculator -/
def charItem (D : Dest Nat σ) (width : Int) (ch : Nat) : Item σ where
  make p :=
    let p := p.addSize 1
    (if p.hasRemaining then p.addWidth width else some p).map fun p => (p, charPrint D ch)

/-- char.hpp 123–135 the loop of fmt_char_printer::operator(): it does not look whether the destination is good -/
def charLoop (D : Dest Nat σ) (ch : Nat) : Nat → σ → Int → Option σ
  | 0, _, _ => none
  | fuel + 1, s, count =>
    if count < 0 then none
    else if count ≤ D.space s then D.poke s (List.replicate count.toNat ch)
    else (D.poke s (List.replicate (D.space s) ch)).bind fun s' =>
      charLoop D ch fuel (D.recycle s') (count - D.space s)

/-- char.hpp 76–85 (and 207–216): the width of `count` characters, and the fill count. -/
structure CharInit where
  pre : Pre
  fillcount : Int

/-- char.hpp 79–85, 210–216 -/
def charInit (width : Int) (a : AlignFmt) (count : Int) (p : Pre) : Option CharInit :=
  (Width.satMulI64 width count).bind fun content =>
    if content < a.width then
      (Width.sub a.width content).bind fun d =>
        (Width.add content (Width.ofInt (Width.round d))).bind fun w =>
          (p.addWidth w).map fun p => ⟨p, Width.round d⟩
    else (p.addWidth content).map fun p => ⟨p, 0⟩

/-- char.hpp 86–100 left_fillcount_ -/
def leftFill (a : AlignFmt) (fillcount : Int) : Int :=
  match a.align with
  | .left => 0
  | .center => fillcount / 2
  | .right => fillcount

/-- char.hpp 86–100 right_fillcount_ -/
def rightFill (a : AlignFmt) (fillcount : Int) : Int :=
  match a.align with
  | .left => fillcount
  | .center => fillcount - fillcount / 2
  | .right => 0

/-- char.hpp 111–140 fmt_char_printer::operator() -/
def fmtCharPrint (D : Dest Nat σ) (C : Charset σ) (a : AlignFmt) (fillcount count : Int) (ch : Nat) (s : σ) : Option σ :=
  (if leftFill a fillcount > 0 then C.encodeFill s (leftFill a fillcount) a.fill else some s).bind fun s =>
  (if count = 1 then charPrint D ch s else charLoop D ch (count.toNat + 2) s count).bind fun s =>
  if rightFill a fillcount > 0 then C.encodeFill s (rightFill a fillcount) a.fill else some s

/-- char.hpp 33–46, 71–108 the constructor of fmt_char_printer -/
def fmtCharItem (D : Dest Nat σ) (C : Charset σ) (width : Int) (a : AlignFmt) (count : Int) (ch : Nat) : Item σ where
  make p := (charInit width a count p).map fun r =>
    (if r.fillcount > 0 then r.pre.addSize (count.toNat + r.fillcount.toNat * C.charSize a.fill)
     else r.pre.addSize count.toNat, fmtCharPrint D C a r.fillcount count ch)

/-- char.hpp 152–158 conv_char32_printer::operator() -/
def convCharPrint (D : Dest Nat σ) (C : Charset σ) (ch : Nat) (s : σ) : Option σ :=
  D.poke (Dest.ensure D s (C.charSize ch)) (C.encodeChar ch)

/-- char.hpp 353–372 make_printer of a char32_t for a destination of another character type -/
def convCharItem (D : Dest Nat σ) (C : Charset σ) (width : Int) (ch : Nat) : Item σ where
  make p :=
    let p := p.addSize (C.charSize ch)
    (if p.hasRemaining then p.addWidth width else some p).map fun p => (p, convCharPrint D C ch)

/-- char.hpp 225–248 fmt_conv_char32_printer::operator() -/
def fmtConvCharPrint (C : Charset σ) (a : AlignFmt) (fillcount count : Int) (ch : Nat) (s : σ) : Option σ :=
  if fillcount ≤ 0 then C.encodeFill s count ch
  else match a.align with
    | .left => (C.encodeFill s count ch).bind fun s => C.encodeFill s fillcount a.fill
    | .center =>
      (C.encodeFill s (fillcount / 2) a.fill).bind fun s =>
      (C.encodeFill s count ch).bind fun s => C.encodeFill s (fillcount - fillcount / 2) a.fill
    | .right => (C.encodeFill s fillcount a.fill).bind fun s => C.encodeFill s count ch

/-- char.hpp 165–177, 198–223 the constructor of fmt_conv_char32_printer -/
def fmtConvCharItem (C : Charset σ) (width : Int) (a : AlignFmt) (count : Int) (ch : Nat) : Item σ where
  make p := (charInit width a count p).map fun r =>
    let p := r.pre.addSize (count.toNat * C.charSize ch)
    (if r.fillcount > 0 then p.addSize (r.fillcount.toNat * C.charSize a.fill) else p,
      fmtConvCharPrint C a r.fillcount count ch)

/-! ## Lemmas -/

variable {D : Dest Nat σ} {Rep : σ → List Nat → Prop} {C : Charset σ}

theorem charPrint_prints (L : Lawful D Rep) (ch : Nat) : Prints τ D Rep (charPrint D ch) [ch] :=
  L.prints_raw (τ := τ) 1 [ch] rfl (by omega)

theorem charLoop_prints (L : Lawful D Rep) (ch : Nat) : ∀ (fuel : Nat) (s : σ) (t : List Nat) (n : Nat), Rep s t →
    (n < fuel ∧ 64 ≤ D.space s ∨ n + 1 < fuel) →
    ∃ s', charLoop D ch fuel s n = some s' ∧ Rep s' (t ++ List.replicate n ch) ∧ Dest.After τ D s s' n := by
  intro fuel
  induction fuel with
  | zero => intro s t n _ h; omega
  | succ fuel ih =>
    intro s t n h hf
    unfold charLoop
    rw [if_neg (by omega)]
    by_cases hle : (n : Int) ≤ D.space s
    · rw [if_pos hle]
      obtain ⟨s', e, r', z, g'⟩ := L.poke s t (List.replicate n ch) h (by simp; omega)
      exact ⟨s', by simpa using e, r', .poke (by simpa using z) g'⟩
    · rw [if_neg hle]
      obtain ⟨s1, e1, r1, sz1, g1⟩ := L.poke s t (List.replicate (D.space s) ch) h (by simp)
      rw [e1]
      simp only [Option.bind_some]
      obtain ⟨r2, sp2, g2⟩ := L.recycle s1 _ r1 (by simp at sz1; omega)
      obtain ⟨s', e', r', g'⟩ := ih (D.recycle s1) _ (n - D.space s) r2 (.inl ⟨by omega, sp2⟩)
      rw [show ((n - D.space s : Nat) : Int) = (n : Int) - D.space s by omega] at e'
      refine ⟨s', e', ?_, .over (fun k => g1 ▸ g2 (g'.1 k)) (by omega)⟩
      rw [List.append_assoc, List.replicate_append_replicate] at r'
      rwa [show D.space s + (n - D.space s) = n by omega] at r'

theorem fmtCharPrint_eq (C : Charset σ) (a : AlignFmt) (n : Nat) (count ch : Nat) :
    ∀ s, fmtCharPrint D C a n count ch s =
      (if a.align = .center ∧ n = 1 then
        (if (count : Int) = 1 then charPrint D ch s else charLoop D ch (count + 2) s count).bind fun s =>
          C.encodeFill s 1 a.fill
      else alignedPrint C a n (fun s => if (count : Int) = 1 then charPrint D ch s else charLoop D ch (count + 2) s count) s) := by
  intro s
  unfold fmtCharPrint alignedPrint leftFill rightFill
  simp only [Int.toNat_natCast]
  by_cases h0 : (n : Int) ≤ 0
  · have hn : n = 0 := by omega
    subst hn
    have : ∀ x : Option σ, x.bind (fun s => some s) = x := by intro x; cases x <;> rfl
    cases a.align <;> simp [this]
  · rw [if_neg h0]
    cases a.align with
    | left =>
      have : ∀ s : σ, (some s).bind (fun s => some s) = some s := fun _ => rfl
      simp [show 0 < n by omega]
    | right =>
      have : ∀ x : Option σ, x.bind (fun s => some s) = x := by intro x; cases x <;> rfl
      simp [show 0 < n by omega, this]
    | center =>
      by_cases h1 : n = 1
      · subst h1; simp
      · have : (0 : Int) < n - (n : Int) / 2 := by omega
        simp only [h1, and_false, if_false]
        rw [if_pos (by omega)]
        congr 1
        funext s
        congr 1
        funext s
        rw [if_pos (by omega)]

theorem fmtCharPrint_prints (L : Lawful D Rep) (HC : C.Lawful D Rep) (a : AlignFmt) (n count ch : Nat) :
    Prints τ D Rep (fmtCharPrint D C a n count ch) (padded C.encodeChar a n (List.replicate count ch)) := by
  have hin : Prints τ D Rep (fun s => if (count : Int) = 1 then charPrint D ch s else charLoop D ch (count + 2) s count)
      (List.replicate count ch) := by
    intro s t h
    by_cases h1 : (count : Int) = 1
    · have : count = 1 := by omega
      subst this
      simp only [Int.natCast_one, if_true]
      exact charPrint_prints L ch s t h
    · simp only [h1, if_false, List.length_replicate]
      exact charLoop_prints L ch _ s t count h (.inr (by omega))
  intro s t h
  rw [fmtCharPrint_eq]
  by_cases hc : a.align = .center ∧ n = 1
  · rw [if_pos hc]
    have := HC.fill (τ := τ) 1 a.fill (by omega)
    have := Prints.comp hin this s t h
    obtain ⟨hc1, hc2⟩ := hc
    subst hc2
    simpa [padded, hc1, IntPrinter.Spec.before, IntPrinter.Spec.times] using this
  · rw [if_neg hc]
    exact alignedPrint_prints HC a n hin s t h

theorem fmtConvCharPrint_prints (HC : C.Lawful D Rep) (a : AlignFmt) (n count ch : Nat) :
    Prints τ D Rep (fmtConvCharPrint C a n count ch) (padded C.encodeChar a n (List.replicate count (C.encodeChar ch)).flatten) := by
  have hin : Prints τ D Rep (fun s => C.encodeFill s count ch) (List.replicate count (C.encodeChar ch)).flatten := by
    have := HC.fill (τ := τ) count ch (by omega); simpa using this
  intro s t h
  obtain ⟨s', e, r⟩ := alignedPrint_prints HC a n hin s t h
  refine ⟨s', ?_, r⟩
  rw [← e]
  unfold fmtConvCharPrint alignedPrint
  cases a.align <;> rfl

/-- an item that adds a size and a width, the width perhaps only if there is remaining width -/
theorem adds_means {pr : σ → Option σ} {t : List Nat} (B : Int) (w : Int) (hw : 0 ≤ w ∧ w ≤ wmax) (it : Item σ)
    (hpr : Prints τ D Rep pr t)
    (h : ∀ p : Pre, ((p.addSize t.length).addWidth w ≠ none → it.make p = ((p.addSize t.length).addWidth w).map fun p => (p, pr)) ∨
      (p.hasRemaining = false ∧ it.make p = some (p.addSize t.length, pr))) :
    it.Means τ D Rep B ⟨t, w, w, w⟩ := by
  refine ⟨hw.1, Int.le_refl _, hw.1, ?_⟩
  intro p hp
  dsimp only at hp
  have hwm : wmax = 2147483647 := rfl
  cases hacc : p.acc with
  | none =>
    have e0 : (p.addSize t.length).addWidth w = some (p.addSize t.length) := Pre.addWidth_none (p := p.addSize t.length) hacc w
    refine ⟨p.addSize t.length, pr, ?_, hpr, rfl, fun _ => hacc, ?_⟩
    · rcases h p with g | g
      · rw [g (by rw [e0]; simp), e0]; rfl
      · exact g.2
    · intro a ha; rw [hacc] at ha; cases ha
  | some b =>
    obtain ⟨⟨h1, h2, h3⟩, h4, h5⟩ := hp b hacc
    have e0 := Pre.addWidth_eq (p := p.addSize t.length) hacc w (by unfold CInt.InI32; omega)
    rcases h p with g | g
    · refine ⟨_, pr, by rw [g (by rw [e0]; simp), e0]; rfl, hpr, rfl, (fun hn => by rw [hacc] at hn; cases hn), ?_⟩
      intro a ha
      rw [hacc] at ha; cases ha
      exact ⟨_, rfl, rfl, by dsimp only; omega, by dsimp only; omega, by dsimp only; omega, fun _ => rfl, fun _ => by dsimp only; omega⟩
    · refine ⟨_, pr, g.2, hpr, rfl, (fun hn => by rw [hacc] at hn; cases hn), ?_⟩
      intro a ha
      rw [hacc] at ha; cases ha
      have : b.limit ≤ b.width := by
        have := g.1
        unfold Pre.hasRemaining Acc.hasRemaining at this
        rw [hacc] at this
        simpa using this
      exact ⟨b, hacc, rfl, by omega, by dsimp only; omega, by dsimp only; omega, by dsimp only; omega, by dsimp only; omega⟩

theorem charItem_means (L : Lawful D Rep) (B : Int) (w : Int) (hw : 0 ≤ w ∧ w ≤ wmax) (ch : Nat) :
    (charItem D w ch).Means τ D Rep B ⟨[ch], w, w, w⟩ := by
  refine adds_means B w hw _ (charPrint_prints L ch) ?_
  intro p
  unfold charItem
  dsimp only
  by_cases hr : (p.addSize 1).hasRemaining = true
  · rw [if_pos hr]; exact .inl fun _ => rfl
  · rw [if_neg hr]; exact .inr ⟨(Bool.not_eq_true _).mp hr, rfl⟩

theorem convCharItem_means (L : Lawful D Rep) (HC : C.Lawful D Rep) (B : Int) (w : Int) (hw : 0 ≤ w ∧ w ≤ wmax) (ch : Nat) :
    (convCharItem D C w ch).Means τ D Rep B ⟨C.encodeChar ch, w, w, w⟩ := by
  have hpr : Prints τ D Rep (convCharPrint D C ch) (C.encodeChar ch) :=
    L.prints_raw (τ := τ) (C.charSize ch) _ (by rw [HC.size]) (by rw [HC.size]; have := (HC.short ch).2; omega)
  refine adds_means B w hw _ hpr ?_
  intro p
  unfold convCharItem
  dsimp only
  rw [HC.size]
  by_cases hr : (p.addSize (C.encodeChar ch).length).hasRemaining = true
  · rw [if_pos hr]; exact .inl fun _ => rfl
  · rw [if_neg hr]; exact .inr ⟨(Bool.not_eq_true _).mp hr, rfl⟩

/-- the width of `count` characters of the width `w`, which is saturated -/
def repeatedWidth (w : Int) (count : Nat) : Int := min wmax (w * count)

/-- what charInit does; the width of an alignment format of more than 32767.5 columns would overflow -/
theorem charInit_eq (w : Int) (hw : 0 ≤ w ∧ w ≤ wmax) (a : AlignFmt) (ha : wmin ≤ a.width ∧ a.width ≤ wmax) (count n : Nat)
    (hc : count < 2 ^ 63) (hn : FillCount a.width (repeatedWidth w count) n)
    (hsum : repeatedWidth w count + n * 65536 ≤ wmax) (p : Pre) :
    charInit w a count p = (p.addWidth (repeatedWidth w count + n * 65536)).map fun p => ⟨p, n⟩ := by
  have hwm : wmax = 2147483647 := rfl
  have hwn : wmin = -2147483648 := rfl
  have hmul : 0 ≤ w * (count : Int) := Int.mul_nonneg hw.1 (by omega)
  unfold charInit
  rw [satMulI64_exact w count (by unfold CInt.InI32; omega) (by unfold CInt.InI64; omega)]
  have hcl : WidthSpec.clamp (w * count) = repeatedWidth w count := by
    unfold WidthSpec.clamp repeatedWidth; omega
  have hpos : 0 ≤ repeatedWidth w count := by unfold repeatedWidth; omega
  rw [hcl]
  simp only [Option.bind_some]
  unfold FillCount at hn
  by_cases hlt : repeatedWidth w count < a.width
  · rw [if_pos hlt] at hn
    rw [if_pos hlt]
    have hr := IntPrinter.isRound_unique _ _ _ hn (Width.round_correct (a.width - repeatedWidth w count) (by unfold CInt.InI32; omega))
    unfold Width.sub CInt.chk32
    rw [if_pos (by omega)]
    simp only [Option.bind_some]
    rw [← hr, ofInt_columns]
    unfold Width.add CInt.chk32 columnsWidth
    rw [if_pos (by omega), show min wmax ((n : Int) * 65536) = n * 65536 by omega]
    rfl
  · rw [if_neg hlt] at hn
    rw [if_neg hlt]
    subst hn
    simp

theorem fmtCharItem_means (L : Lawful D Rep) (HC : C.Lawful D Rep) (B : Int) (w : Int) (hw : 0 ≤ w ∧ w ≤ wmax)
    (a : AlignFmt) (ha : wmin ≤ a.width ∧ a.width ≤ wmax) (count n : Nat)
    (hc : count < 2 ^ 63) (hn : FillCount a.width (repeatedWidth w count) n)
    (hsum : repeatedWidth w count + n * 65536 ≤ wmax) (ch : Nat) :
    (fmtCharItem D C w a count ch).Means τ D Rep B
      ⟨padded C.encodeChar a n (List.replicate count ch), repeatedWidth w count + n * 65536,
        repeatedWidth w count + n * 65536, repeatedWidth w count + n * 65536⟩ := by
  have hpos : 0 ≤ repeatedWidth w count := by
    have : 0 ≤ w * (count : Int) := Int.mul_nonneg hw.1 (by omega)
    unfold repeatedWidth; have : (0 : Int) ≤ wmax := by decide
    omega
  refine adds_means B _ ⟨by omega, hsum⟩ _ (fmtCharPrint_prints L HC a n count ch) ?_
  intro p
  refine .inl fun _ => ?_
  unfold fmtCharItem
  dsimp only
  rw [charInit_eq w hw a ha count n hc hn hsum, Option.map_map, padded_length HC, List.length_replicate]
  unfold Pre.addWidth
  cases hacc : p.acc with
  | none =>
    simp only [Option.map_some, Function.comp, Pre.addSize, hacc, Int.toNat_natCast]
    by_cases hp : (n : Int) > 0
    · rw [if_pos hp]
    · rw [if_neg hp]; have : n = 0 := by omega
      subst this; simp
  | some b =>
    simp only [Pre.addSize, hacc]
    cases b.addWidth (repeatedWidth w count + n * 65536) with
    | none => rfl
    | some b' =>
      simp only [Option.map_some, Function.comp, Int.toNat_natCast]
      by_cases hp : (n : Int) > 0
      · rw [if_pos hp]
      · rw [if_neg hp]; have : n = 0 := by omega
        subst this; simp

theorem fmtConvCharItem_means (HC : C.Lawful D Rep) (B : Int) (w : Int) (hw : 0 ≤ w ∧ w ≤ wmax)
    (a : AlignFmt) (ha : wmin ≤ a.width ∧ a.width ≤ wmax) (count n : Nat)
    (hc : count < 2 ^ 63) (hn : FillCount a.width (repeatedWidth w count) n)
    (hsum : repeatedWidth w count + n * 65536 ≤ wmax) (ch : Nat) :
    (fmtConvCharItem C w a count ch).Means τ D Rep B
      ⟨padded C.encodeChar a n (List.replicate count (C.encodeChar ch)).flatten, repeatedWidth w count + n * 65536,
        repeatedWidth w count + n * 65536, repeatedWidth w count + n * 65536⟩ := by
  have hpos : 0 ≤ repeatedWidth w count := by
    have : 0 ≤ w * (count : Int) := Int.mul_nonneg hw.1 (by omega)
    unfold repeatedWidth; have : (0 : Int) ≤ wmax := by decide
    omega
  refine adds_means B _ ⟨by omega, hsum⟩ _ (fmtConvCharPrint_prints HC a n count ch) ?_
  intro p
  refine .inl fun _ => ?_
  unfold fmtConvCharItem
  dsimp only
  have hlen : ((List.replicate count (C.encodeChar ch)).flatten).length = count * C.charSize ch := by
    rw [HC.size, List.length_flatten, List.map_replicate, List.sum_replicate]; simp
  rw [charInit_eq w hw a ha count n hc hn hsum, Option.map_map, padded_length HC, hlen]
  unfold Pre.addWidth
  cases hacc : p.acc with
  | none =>
    simp only [Option.map_some, Function.comp, Pre.addSize, hacc, Int.toNat_natCast]
    by_cases hp : (n : Int) > 0
    · rw [if_pos hp]; cases p.size <;> simp [Nat.add_assoc]
    · rw [if_neg hp]; have : n = 0 := by omega
      subst this; simp
  | some b =>
    simp only [Pre.addSize, hacc]
    cases b.addWidth (repeatedWidth w count + n * 65536) with
    | none => rfl
    | some b' =>
      simp only [Option.map_some, Function.comp, Int.toNat_natCast]
      by_cases hp : (n : Int) > 0
      · rw [if_pos hp]; cases p.size <;> simp [Nat.add_assoc]
      · rw [if_neg hp]; have : n = 0 := by omega
        subst this; simp

end Strf.Print

import Verif.IntPrinter.Lemmas
/-
C30, C31, C32: formatted integers. What they must look like is in Spec.lean (`formatted`, `width`).
-/
namespace Strf.IntPrinter
open Spec Strf.IntDigits Strf.IntDigits.Spec Strf.Numpunct Strf.Numpunct.Spec Strf.Print
open Strf.Dest (Dest Lawful Prints)

variable {σ : Type} {D : Dest Nat σ} {Rep : σ → List Nat → Prop} {C : Charset σ}

/-- an alignment format with a `width_t` asks for the layout whose columns are its width rounded to an integer -/
def LayoutOf (a : AlignFmt) (lay : Layout) : Prop :=
  lay.fill = a.fill ∧ lay.align = a.align ∧ CInt.InI32 a.width ∧ WidthSpec.IsRound a.width lay.columns

theorem isRound_unique (v r r' : Int) (h : WidthSpec.IsRound v r) (h' : WidthSpec.IsRound v r') : r = r' := by
  unfold WidthSpec.IsRound at *; omega

theorem LayoutOf.columns {a : AlignFmt} {lay : Layout} (h : LayoutOf a lay) : lay = ⟨a.fill, a.align, Width.round a.width⟩ := by
  obtain ⟨h1, h2, h3, h4⟩ := h
  have := isRound_unique _ _ _ h4 (Width.round_correct a.width h3)
  cases lay; simp_all

theorem groups_sum (gs : List Nat) (rep : Bool) (fmt : Fmt) (x : IntVal) :
    (groups gs rep fmt x).sum = (digits .lower fmt x).length ∧ groups gs rep fmt x ≠ [] := by
  unfold groups
  exact ⟨by rw [List.sum_reverse, split, splitFrom_sum], by rw [Ne, List.reverse_eq_nil_iff]; exact splitFrom_ne_nil _ _ _ _ _⟩

theorem groups_none (fmt : Fmt) (x : IntVal) : groups [] false fmt x = [(digits .lower fmt x).length] := by
  unfold groups split; rw [splitFrom_nil]; rfl

theorem grouped_one (sep : List Nat) (ds : List Nat) (n : Nat) (h : n = ds.length) : grouped sep [n] ds = ds := by
  subst h; unfold grouped chop; rw [List.take_length]; exact intercalate_single _ _

theorem groups_single (gs : List Nat) (rep : Bool) (fmt : Fmt) (x : IntVal) (h : (groups gs rep fmt x).length = 1) :
    groups gs rep fmt x = [(digits .lower fmt x).length] := by
  obtain ⟨n, hn⟩ := List.length_eq_one_iff.mp h
  have := (groups_sum gs rep fmt x).1
  rw [hn] at this ⊢
  simpa using this

theorem zeros_eq (gs : List Nat) (rep : Bool) (fmt : Fmt) (x : IntVal) :
    zeros gs rep fmt x = zerosN ((groups gs rep fmt x).length - 1) fmt x := rfl

/-- the length of the formatted text -/
theorem formatted_length (enc : Nat → List Nat) (lc : Lettercase) (sep gs : List Nat) (rep : Bool) (fmt : Fmt)
    (lay : Layout) (x : IntVal) :
    (formatted enc lc sep gs rep fmt lay x).length = (missing gs rep fmt lay x) * (enc lay.fill).length +
      (leader enc lc fmt lay.fill x).length + zeros gs rep fmt x + (digits .lower fmt x).length +
      ((groups gs rep fmt x).length - 1) * sep.length := by
  unfold formatted
  dsimp only
  simp only [List.length_append, times_length, List.length_replicate]
  obtain ⟨h1, h2⟩ := groups_sum gs rep fmt x
  rw [grouped_length _ _ _ (by rw [h1]; exact digits_length_lc _ _ _ _) h2, digits_length_lc fmt x lc .lower]
  have : before lay.align (missing gs rep fmt lay x) ≤ missing gs rep fmt lay x := by
    cases lay.align <;> simp only [before] <;> omega
  obtain ⟨m, hm⟩ : ∃ m, missing gs rep fmt lay x = before lay.align (missing gs rep fmt lay x) + m := ⟨_, (Nat.add_sub_cancel' this).symm⟩
  generalize before lay.align (missing gs rep fmt lay x) = b at hm this ⊢
  rw [hm, show b + m - b = m by omega, Nat.add_mul]
  omega

theorem assemble {pf pp pz pd pr : σ → Option σ} {a z d r : List Nat}
    (h1 : Prints τ D Rep (fun s => (pf s).bind pp) a) (hz : Prints τ D Rep pz z) (hd : Prints τ D Rep pd d)
    (hr : Prints τ D Rep pr r) :
    Prints τ D Rep (fun s => (pf s).bind fun s => (pp s).bind fun s => (pz s).bind fun s => (pd s).bind pr)
      (a ++ z ++ d ++ r) := by
  have := Prints.comp h1 (Prints.comp hz (Prints.comp hd hr))
  intro s t h
  obtain ⟨s', e, r', g⟩ := this s t h
  refine ⟨s', ?_, by simpa using r', g.cast (by simp)⟩
  rw [← e]
  dsimp only
  rw [Option.bind_assoc]

/-- the widths and sizes reported, given the result of the fill part -/
theorem pre_ok (HC : C.Lawful D Rep) (lc : Lettercase) (fmt : Fmt) (x : IntVal) (sep gs : List Nat) (rep : Bool)
    (lay : Layout) (w : InitRes) (h0 : 0 ≤ w.fillcount)
    (h1 : w.subWidth + w.fillcount = ((columns gs rep fmt x + zeros gs rep fmt x : Nat) : Int) + missing gs rep fmt lay x)
    (h2 : fillSign fmt x → (w.subWidth = ((columns gs rep fmt x + zeros gs rep fmt x : Nat) : Int) - 1 ∧ w.fillcount = missing gs rep fmt lay x + 1) ∨
      (w.subWidth = ((columns gs rep fmt x + zeros gs rep fmt x : Nat) : Int) ∧ w.fillcount = 0 ∧ missing gs rep fmt lay x = 0 ∧ lay.fill = 0x20))
    (h3 : ¬ fillSign fmt x → w.subWidth = ((columns gs rep fmt x + zeros gs rep fmt x : Nat) : Int) ∧ w.fillcount = missing gs rep fmt lay x) :
    w.subWidth + w.fillcount = width gs rep fmt lay x ∧
    (w.subWidth - ((groups gs rep fmt x).length - 1 : Nat)).toNat + w.fillcount.toNat * C.charSize lay.fill +
      ((groups gs rep fmt x).length - 1) * sep.length = (formatted C.encodeChar lc sep gs rep fmt lay x).length := by
  refine ⟨by rw [h1]; unfold width; push_cast; rfl, ?_⟩
  rw [formatted_length, HC.size]
  by_cases hf : fillSign fmt x
  · have hl := leaderColumns_fill fmt x hf
    rw [leader_fill _ _ _ _ _ hf]
    rcases h2 hf with ⟨e1, e2⟩ | ⟨e1, e2, e3, e4⟩
    · rw [e1, e2, show ((missing gs rep fmt lay x : Int) + 1).toNat = missing gs rep fmt lay x + 1 by omega, Nat.add_mul]
      unfold columns
      omega
    · rw [e1, e2, e3, e4, HC.ascii 0x20 (by decide)]
      unfold columns
      simp
      omega
  · obtain ⟨e1, e2⟩ := h3 hf
    rw [e1, e2, Int.toNat_natCast, leader_length _ _ _ _ _ hf]
    unfold columns
    omega

/-! ### int_printer_static_base_and_punct<Base, false> -/

theorem initDefault_eq (fmt : Fmt) (d : Data) (hf : Fmt.Ok fmt) (x : IntVal) (hx : x.Ok)
    (hd : d.uvalue = magnitude fmt.base x)
    (hs : fmt.base = 10 → d.sign = (if x.value < 0 then 0x2D else if x.signed then signChar fmt.sign else 0) ∧
        d.hasPrefix = decide (d.sign ≠ 0)) :
    initDefault fmt d = initAligned fmt ⟨0x20, .right, 0⟩ d := by
  obtain ⟨d', e1, hr⟩ := ready_of_init1 fmt hf.1 x hx d hd hs
  have ez := zerosPart_ok fmt hf x hx 0 (by omega)
  unfold initDefault initAligned
  dsimp only
  rw [e1]
  dsimp only
  rw [hr.digcount]
  simp only [Int.natCast_zero, Int.add_zero, Nat.add_zero] at ez
  rw [ez]
  dsimp only
  unfold fillPart
  dsimp only
  have : Width.round 0 = 0 := by decide
  rw [this, if_pos (by omega)]
  simp [b2i]

/-- C30/C31/C32: integers with base, precision, pad0, sign and alignment formats but without punctuation. For every
integer type, value, format, destination and charset: the printer can be constructed, printing writes exactly the
specified text, never outside the destination's buffer, and the width and size it adds to the premeasurements are
those of the text. `a` is absent if there is no alignment format. -/
theorem fmt_int_exact (L : Lawful D Rep) (HC : C.Lawful D Rep) (fmt : Fmt) (hf : Fmt.Ok fmt) (a : Option AlignFmt)
    (lay : Layout) (hl : match a with | none => lay = Layout.none | some a => LayoutOf a lay) (lc : Lettercase)
    (x : IntVal) (hx : x.Ok) :
    ∃ d pre, Data.make C fmt a x = some (d, pre) ∧
      Prints τ D Rep (d.print D C fmt.base lc) (formatted C.encodeChar lc [] [] false fmt lay x) ∧
      pre.width = width [] false fmt lay x ∧
      pre.size = (formatted C.encodeChar lc [] [] false fmt lay x).length := by
  obtain ⟨d0, e0, hv, hs⟩ := init1_ok fmt.base hf.1 fmt.sign x hx .zero
  obtain ⟨a', ha', hlay, hfill⟩ : ∃ a' : AlignFmt, initAny fmt a d0 = initAligned fmt a' d0 ∧ lay = ⟨a'.fill, a'.align, Width.round a'.width⟩ ∧ (a.map (·.fill)).getD 0x20 = a'.fill := by
    cases a with
    | none => exact ⟨_, initDefault_eq fmt d0 hf x hx hv hs, by rw [show lay = Layout.none from hl]; rfl, rfl⟩
    | some a => exact ⟨a, rfl, LayoutOf.columns hl, rfl⟩
  obtain ⟨d', e1, hr⟩ := ready_of_init1 fmt hf.1 x hx d0 hv hs
  have ez := zerosPart_ok fmt hf x hx 0 (by omega)
  have hg1 : (groups [] false fmt x).length - 1 = 0 := by rw [groups_none]; rfl
  have hz : zerosN 0 fmt x = zeros [] false fmt x := by rw [zeros_eq, hg1]
  have hcol : leaderColumns fmt x + (digits .lower fmt x).length + 0 = columns [] false fmt x := by
    unfold columns; rw [hg1]
  rw [hz, hcol] at ez
  have hr' : Ready fmt x { d' with leadingZeros := zeros [] false fmt x } := ⟨hr.1, hr.2, hr.3, hr.4, hr.5⟩
  obtain ⟨p1, p2, p3, p4, p5, p6, p7, p8, p9, p10⟩ := fillPart_ok (τ := τ) L HC lc fmt hf.1 x a'
    (columns [] false fmt x + zeros [] false fmt x) _ hr'
  have hmiss : (Width.round a'.width - ((columns [] false fmt x + zeros [] false fmt x : Nat) : Int)).toNat = missing [] false fmt lay x := by
    unfold missing; rw [hlay]
  have ei : initAligned fmt a' d0 = some (fillPart fmt.base a' ((columns [] false fmt x + zeros [] false fmt x : Nat) : Int)
      { d' with leadingZeros := zeros [] false fmt x }) := by
    unfold initAligned
    dsimp only
    rw [e1]
    dsimp only
    rw [hr.digcount]
    simp only [Int.natCast_zero, Int.add_zero] at ez
    rw [ez]
  unfold Data.make
  rw [e0]
  dsimp only
  rw [ha', ei]
  generalize fillPart fmt.base a' ((columns [] false fmt x + zeros [] false fmt x : Nat) : Int)
      { d' with leadingZeros := zeros [] false fmt x } = r at *
  obtain ⟨d2, w⟩ := r
  dsimp only at p1 p2 p3 p4 p5 p6 p7 p8 p9 p10 ⊢
  have hlf : lay.fill = a'.fill := by rw [hlay]
  have hla : lay.align = a'.align := by rw [hlay]
  obtain ⟨q1, q2⟩ := pre_ok HC lc fmt x [] [] false lay w p7 (by rw [p8, hmiss])
    (fun h => by rw [← hmiss, hlf]; exact p9 h) (fun h => by rw [← hmiss]; exact p10 h)
  refine ⟨_, _, rfl, ?_, q1, ?_⟩
  · have hw := write_int_exact (τ := τ) L fmt.base 8 (magnitude fmt.base x) lc hf.1 (by simp [Bytes]) (magnitude_lt64 _ x hx)
    have := assemble p1 (L.prints_fill (τ := τ) (zeros [] false fmt x : Int) 0x30) hw (printFill_ok HC d2.rightFill d2.fillchar)
    rw [p2, p3, Int.toNat_natCast, Int.toNat_natCast, hmiss] at this
    have ef : formatted C.encodeChar lc [] [] false fmt lay x =
        times C.encodeChar (before a'.align (missing [] false fmt lay x)) a'.fill ++ leader C.encodeChar lc fmt a'.fill x ++
          List.replicate (zeros [] false fmt x) 48 ++ text fmt.base lc (magnitude fmt.base x) ++
          times C.encodeChar (missing [] false fmt lay x - before a'.align (missing [] false fmt lay x)) a'.fill := by
      unfold formatted
      dsimp only
      rw [groups_none, grouped_one _ _ _ (digits_length_lc _ _ _ _), hlf, hla]
      rfl
    rw [ef]
    have hc8 : d2.digcount = countDigits fmt.base 8 (magnitude fmt.base x) := by
      rw [p5]; try dsimp only
      rw [hr.digcount, count_digits_exact fmt.base 8 _ hf.1 (by simp [Bytes]) (magnitude_lt64 _ x hx)]
      unfold digits; rw [text_length]
    unfold Data.print
    rw [hc8, p4, p6, p3]
    try dsimp only
    rw [hr.uvalue, p2, hmiss]
    exact this
  · dsimp only
    rw [← q2, hfill, hlf]
    rw [hg1]
    simp only [Int.natCast_zero, Int.sub_zero, Nat.zero_mul, Nat.add_zero]
    split_ifs with hh
    · rfl
    · have : w.fillcount.toNat = 0 := by omega
      rw [this]; simp

/-- `-255` as `right(…, 12, '*')` in hexadecimal with base and at least ten digits: the two's complement. -/
example : ∃ d pre, Data.make (utf Dest.Maker.dest .utf8) ⟨16, 10, 0, .negativeOnly, true⟩
      (some ⟨0x2A, .center, 15 * 65536⟩) ⟨true, 4, -255⟩ = some (d, pre) ∧
    (d.print Dest.Maker.dest (utf Dest.Maker.dest .utf8) 16 .upper (Dest.Maker.init (List.replicate 64 0))).map
        (fun s => (Dest.Maker.finishE true s).2) = some (some ("*0X00FFFFFF01**".toList.map Char.toNat)) ∧
    pre = ⟨15, 15⟩ ∧
    formatted (Utf.encodeChar .utf8) .upper [] [] false ⟨16, 10, 0, .negativeOnly, true⟩ ⟨0x2A, .center, 15⟩ ⟨true, 4, -255⟩ =
      "*0X00FFFFFF01**".toList.map Char.toNat := by
  refine ⟨_, _, rfl, ?_, ?_, ?_⟩ <;> decide +kernel

example : Fmt.Ok ⟨16, 10, 0, .negativeOnly, true⟩ ∧ LayoutOf ⟨0x2A, .center, 15 * 65536⟩ ⟨0x2A, .center, 15⟩ ∧
    IntVal.Ok ⟨true, 4, -255⟩ := by
  refine ⟨⟨by simp [Base], by decide, by decide⟩, ⟨rfl, rfl, by unfold CInt.InI32; decide, ?_⟩, by decide⟩
  unfold WidthSpec.IsRound; left; decide

/-- fill_sign: a fill character before a non-negative number, counted by `pad0` -/
example : formatted (Utf.encodeChar .utf8) .lower [] [] false ⟨10, 0, 6, .fillInstead, false⟩ ⟨0x2022, .left, 8⟩ ⟨true, 4, 42⟩ =
    [0xE2, 0x80, 0xA2, 48, 48, 48, 52, 50, 0xE2, 0x80, 0xA2, 0xE2, 0x80, 0xA2] := by decide +kernel

/-! ### default_int_printer and aligned_default_int_printer -/

/-- the default format -/
def defaultFmt : Fmt := ⟨10, 0, 0, .negativeOnly, false⟩

theorem default_parts (x : IntVal) (lc : Lettercase) :
    zeros [] false defaultFmt x = 0 ∧ ¬ fillSign defaultFmt x ∧
    leaderColumns defaultFmt x = (if x.value < 0 then 1 else 0) ∧
    (∀ enc fill, leader enc lc defaultFmt fill x = if x.value < 0 then [0x2D] else []) := by
  refine ⟨?_, ?_, ?_, ?_⟩
  · unfold zeros defaultFmt; dsimp only; omega
  · unfold fillSign defaultFmt; simp
  · unfold leaderColumns leader defaultFmt; simp; split_ifs <;> rfl
  · intro enc fill; unfold leader defaultFmt; simp

theorem defaultInt_ok (x : IntVal) (hx : x.Ok) :
    DefaultInt.ofValue x = some ⟨magnitude 10 x, (digits .lower defaultFmt x).length, decide (x.value < 0)⟩ := by
  have hm : magnitude 10 x = x.value.natAbs := rfl
  have hc : ∀ u, u = x.value.natAbs → countDigits 10 x.bytes u = (digits .lower defaultFmt x).length := by
    intro u hu
    rw [hu, ← hm, count_digits_exact 10 x.bytes _ (by simp [Base]) hx.1 (magnitude_lt 10 x hx)]
    unfold digits; rw [text_length]; rfl
  have h2 := hx.2
  unfold DefaultInt.ofValue
  by_cases hs : x.signed = true
  · rw [if_pos hs] at h2 ⊢
    by_cases hv : x.value ≥ 0
    · rw [if_pos hv, hc _ (by omega), hm]
      congr 2
      · omega
      · simp; omega
    · rw [if_neg hv]
      have hb : 1 ≤ 8 * x.bytes := by rcases hx.1 with h | h | h | h <;> omega
      rw [(unsigned_abs_exact (8 * x.bytes) hb x.value h2.1 h2.2).1]
      dsimp only
      rw [hc _ rfl, hm]
      congr 2
      simp; omega
  · rw [if_neg hs] at h2 ⊢
    rw [hc _ (by omega), hm]
    congr 2
    · omega
    · simp; omega

theorem defaultInt_prints (L : Lawful D Rep) (lc : Lettercase) (x : IntVal) (hx : x.Ok) (d : DefaultInt)
    (hd : DefaultInt.ofValue x = some d) :
    Prints τ D Rep (d.print D) ((if x.value < 0 then [0x2D] else []) ++ digits lc defaultFmt x) := by
  rw [defaultInt_ok x hx] at hd
  cases hd
  have h64 := magnitude_lt64 10 x hx
  have hlen : (digits .lower defaultFmt x).length ≤ 22 := by
    unfold digits; rw [text_length]; exact len_small 10 _ (by simp) h64
  have e : back 10 .lower (magnitude 10 x) = digits lc defaultFmt x := by
    show back10 (magnitude 10 x) [] = _
    rw [back10_ok lc, List.append_nil]; rfl
  intro s t h
  unfold DefaultInt.print pokeField
  dsimp only
  rw [e]
  by_cases hv : x.value < 0
  · simp only [hv, decide_true, b2n, if_true]
    rw [if_pos (by simp [digits_length_lc defaultFmt x lc .lower]; omega)]
    exact L.prints_raw (τ := τ) _ _ (by simp [digits_length_lc defaultFmt x lc .lower]) (by omega) s t h
  · simp only [hv, decide_false, b2n, if_false, Bool.false_eq_true]
    rw [if_pos (by simp [digits_length_lc defaultFmt x lc .lower])]
    exact L.prints_raw (τ := τ) _ _ (by simp [digits_length_lc defaultFmt x lc .lower]) (by omega) s t h

/-- C30/C31/C32 for integers without any format. -/
theorem default_int_exact (L : Lawful D Rep) (enc : Nat → List Nat) (lc : Lettercase) (x : IntVal) (hx : x.Ok) :
    ∃ d, DefaultInt.ofValue x = some d ∧
      Prints τ D Rep (d.print D) (formatted enc lc [] [] false defaultFmt .none x) ∧
      d.pre.width = width [] false defaultFmt .none x ∧
      d.pre.size = (formatted enc lc [] [] false defaultFmt .none x).length := by
  obtain ⟨z, _, lcol, ld⟩ := default_parts x lc
  have hm : missing [] false defaultFmt .none x = 0 := by unfold missing Layout.none; dsimp only; omega
  refine ⟨_, defaultInt_ok x hx, ?_, ?_, ?_⟩
  · have : formatted enc lc [] [] false defaultFmt .none x = (if x.value < 0 then [0x2D] else []) ++ digits lc defaultFmt x := by
      unfold formatted
      dsimp only
      rw [hm, z, ld, groups_none, grouped_one _ _ _ (digits_length_lc _ _ _ _)]
      simp [times, before, Layout.none]
    rw [this]
    exact defaultInt_prints L lc x hx _ (defaultInt_ok x hx)
  · unfold width columns DefaultInt.pre
    dsimp only
    rw [hm, z, lcol, groups_none]
    by_cases hv : x.value < 0 <;> simp [hv, b2i]; omega
  · rw [formatted_length, hm, z, ld, groups_none]
    unfold DefaultInt.pre
    by_cases hv : x.value < 0 <;> simp [hv, b2n]; omega

example : (DefaultInt.ofValue ⟨true, 8, -9223372036854775808⟩).bind (fun d => (d.print Dest.Maker.dest
      { Dest.Maker.init (List.replicate 64 0) with ptr := 60 }).map (fun s => (Dest.Maker.finishE true s).2)) =
    some (some (List.replicate 60 0 ++ "-9223372036854775808".toList.map Char.toNat)) := by decide +kernel

/-- C30/C31/C32 for integers with an alignment format only. -/
theorem aligned_default_int_exact (L : Lawful D Rep) (HC : C.Lawful D Rep) (lc : Lettercase) (a : AlignFmt)
    (lay : Layout) (hl : LayoutOf a lay) (x : IntVal) (hx : x.Ok) :
    ∃ p, AlignedDefault.make x a = some p ∧
      Prints τ D Rep (p.print D C) (formatted C.encodeChar lc [] [] false defaultFmt lay x) ∧
      (p.pre C).width = width [] false defaultFmt lay x ∧
      (p.pre C).size = (formatted C.encodeChar lc [] [] false defaultFmt lay x).length := by
  obtain ⟨z, _, lcol, ld⟩ := default_parts x lc
  have hlay := hl.columns
  have hcol : columns [] false defaultFmt x = (if x.value < 0 then 1 else 0) + (digits .lower defaultFmt x).length := by
    unfold columns; rw [lcol, groups_none]; rfl
  have hm : (missing [] false defaultFmt lay x : Int) = max 0 (Width.round a.width - columns [] false defaultFmt x) := by
    unfold missing; rw [hlay, z]; dsimp only; omega
  have hmk : AlignedDefault.make x a = some ⟨⟨magnitude 10 x, (digits .lower defaultFmt x).length, decide (x.value < 0)⟩,
      missing [] false defaultFmt lay x, a.align, a.fill⟩ := by
    unfold AlignedDefault.make
    rw [defaultInt_ok x hx]
    dsimp only
    congr 2
    rw [hm, hcol]
    by_cases hv : x.value < 0 <;> simp only [hv, decide_true, decide_false, b2i, if_true, if_false, Bool.false_eq_true] <;> split_ifs <;> omega
  refine ⟨_, hmk, ?_, ?_, ?_⟩
  · have ef : formatted C.encodeChar lc [] [] false defaultFmt lay x =
        times C.encodeChar (before a.align (missing [] false defaultFmt lay x)) a.fill ++
          (((if x.value < 0 then [0x2D] else []) ++ digits lc defaultFmt x) ++
          times C.encodeChar (missing [] false defaultFmt lay x - before a.align (missing [] false defaultFmt lay x)) a.fill) := by
      unfold formatted
      dsimp only
      rw [z, ld, groups_none, grouped_one _ _ _ (digits_length_lc _ _ _ _)]
      rw [hlay]; simp
    rw [ef]
    generalize missing [] false defaultFmt lay x = n
    have hdp := defaultInt_prints (τ := τ) L lc x hx _ (defaultInt_ok x hx)
    have hA : Prints τ D Rep (fun s => if (n : Int) > 0 ∧ a.align ≠ .left then C.encodeFill s ((if (n : Int) > 0 then
        match a.align with | .left => (0 : Int) | .right => (n : Int) | .center => (n : Int) / 2 else 0 : Int)) a.fill else some s)
        (times C.encodeChar (before a.align n) a.fill) := by
      intro s t h
      dsimp only
      split_ifs with h1 h2
      · have h3 : (match a.align with | .left => (0 : Int) | .right => (n : Int) | .center => (n : Int) / 2) = ((before a.align n : Nat) : Int) := by
          cases a.align <;> simp only [before] <;> omega
        rw [h3]
        exact HC.fill _ a.fill (by omega) s t h
      · exact absurd h1.1 h2
      · have : before a.align n = 0 := by
          by_cases hn : n = 0
          · rw [hn]; cases a.align <;> rfl
          · have : a.align = .left := by by_contra hc; exact h1 ⟨by omega, hc⟩
            rw [this]; rfl
        rw [this]
        exact Prints.nil s t h
    have hB : Prints τ D Rep (fun s => if ((if (n : Int) > 0 then
        match a.align with | .left => (n : Int) | .right => 0 | .center => (n : Int) - (n : Int) / 2 else 0 : Int)) > 0
          then C.encodeFill s ((if (n : Int) > 0 then
        match a.align with | .left => (n : Int) | .right => 0 | .center => (n : Int) - (n : Int) / 2 else 0 : Int)) a.fill else some s)
        (times C.encodeChar (n - before a.align n) a.fill) := by
      have h3 : ((if (n : Int) > 0 then
          match a.align with | .left => (n : Int) | .right => 0 | .center => (n : Int) - (n : Int) / 2 else 0 : Int)) =
            ((n - before a.align n : Nat) : Int) := by
        cases a.align <;> simp only [before] <;> split_ifs <;> omega
      rw [h3]
      exact printFill_ok HC (n - before a.align n : Nat) a.fill
    exact Prints.comp hA (Prints.comp hdp hB)
  · unfold width AlignedDefault.pre
    dsimp only
    rw [hcol, z]
    by_cases hv : x.value < 0 <;> simp [hv, b2i] <;> omega
  · rw [formatted_length, z, ld, groups_none]
    unfold AlignedDefault.pre
    dsimp only
    rw [HC.size, Int.toNat_natCast, hlay]
    by_cases hv : x.value < 0 <;> simp [hv, b2n]; omega

/-! ### int_printer_no_pad0_nor_punct -/

theorem plain_parts (base : Nat) (sign : Showsign) (showbase : Bool) (x : IntVal) :
    zeros [] false ⟨base, 0, 0, sign, showbase⟩ x = 0 ∧ missing [] false ⟨base, 0, 0, sign, showbase⟩ .none x = 0 := by
  refine ⟨by unfold zeros; dsimp only; omega, by unfold missing Layout.none; dsimp only; omega⟩

theorem plain_formatted (enc : Nat → List Nat) (lc : Lettercase) (base : Nat) (sign : Showsign) (showbase : Bool) (x : IntVal) :
    formatted enc lc [] [] false ⟨base, 0, 0, sign, showbase⟩ .none x =
      leader enc lc ⟨base, 0, 0, sign, showbase⟩ 0x20 x ++ digits lc ⟨base, 0, 0, sign, showbase⟩ x := by
  obtain ⟨z, m⟩ := plain_parts base sign showbase x
  unfold formatted
  dsimp only
  rw [z, m, groups_none, grouped_one _ _ _ (digits_length_lc _ _ _ _)]
  simp [times, before, Layout.none]

theorem plain_width (base : Nat) (sign : Showsign) (showbase : Bool) (x : IntVal) :
    width [] false ⟨base, 0, 0, sign, showbase⟩ .none x =
      leaderColumns ⟨base, 0, 0, sign, showbase⟩ x + (digits .lower ⟨base, 0, 0, sign, showbase⟩ x).length := by
  obtain ⟨z, m⟩ := plain_parts base sign showbase x
  unfold width columns
  rw [z, m, groups_none]
  simp

/-- C30/C31/C32 for integers in base 2, 8 or 16 whose format is at most the base prefix. -/
theorem plain_int_exact (L : Lawful D Rep) (enc : Nat → List Nat) (base : Nat) (hb : Base base) (h10 : base ≠ 10)
    (sign : Showsign) (showbase : Bool) (lc : Lettercase) (x : IntVal) (hx : x.Ok) :
    ∃ p, Plain.init base sign showbase x = some p ∧
      Prints τ D Rep (p.print D base lc) (formatted enc lc [] [] false ⟨base, 0, 0, sign, showbase⟩ .none x) ∧
      (p.pre base).width = width [] false ⟨base, 0, 0, sign, showbase⟩ .none x ∧
      (p.pre base).size = (formatted enc lc [] [] false ⟨base, 0, 0, sign, showbase⟩ .none x).length := by
  have hm : castUnsigned x = magnitude base x := by unfold castUnsigned magnitude; rw [if_neg h10]
  have hlt := magnitude_lt base x hx
  have h64 := magnitude_lt64 base x hx
  have hc : countDigits base x.bytes (magnitude base x) = (digits .lower ⟨base, 0, 0, sign, showbase⟩ x).length := by
    rw [count_digits_exact base x.bytes _ hb hx.1 hlt]; unfold digits; rw [text_length]
  have hfs : ¬ fillSign ⟨base, 0, 0, sign, showbase⟩ x := fun h => h10 h.1
  obtain ⟨pf, hpf⟩ : ∃ pf, pf = leaderColumns ⟨base, 0, 0, sign, showbase⟩ x := ⟨_, rfl⟩
  have hinit : Plain.init base sign showbase x =
      some ⟨magnitude base x, (digits .lower ⟨base, 0, 0, sign, showbase⟩ x).length, pf⟩ := by
    unfold Plain.init
    rw [if_neg h10]
    dsimp only
    rw [hm, hc, hpf]
    congr 2
    unfold leaderColumns leader
    dsimp only
    rw [if_neg h10]
    by_cases h8 : base = 8 <;> cases showbase <;> by_cases hv : x.value = 0 <;> simp [h8, hv] <;> split_ifs <;> rfl
  have hlead : ∀ lc, (leader enc lc ⟨base, 0, 0, sign, showbase⟩ 0x20 x).length = pf := by
    intro lc; rw [leader_length _ _ _ _ _ hfs, hpf]
  refine ⟨_, hinit, ?_, ?_, ?_⟩
  · rw [plain_formatted]
    have hlen := digits_length_lc ⟨base, 0, 0, sign, showbase⟩ x lc .lower
    have hdig : digits lc ⟨base, 0, 0, sign, showbase⟩ x = text base lc (magnitude base x) := rfl
    rcases hb with h2 | h8 | h0 | h16
    · subst h2
      have e1 : leader enc lc ⟨2, 0, 0, sign, showbase⟩ 0x20 x = if pf ≠ 0 then [0x30, baseLetter 2 lc] else [] := by
        rw [hpf, baseLetter_ok]
        unfold leaderColumns leader
        cases showbase <;> simp
      have hA : Prints τ D Rep (fun s => if pf ≠ 0 then D.poke (Dest.ensure D s 2) [0x30, baseLetter 2 lc] else some s)
          (leader enc lc ⟨2, 0, 0, sign, showbase⟩ 0x20 x) := by
        rw [e1]
        intro s t h
        dsimp only
        split_ifs
        · exact L.prints_raw (τ := τ) 2 _ (by simp) (by omega) s t h
        · exact Prints.nil s t h
      have hw := write_int_exact (τ := τ) L 2 8 (magnitude 2 x) lc (by simp [Base]) (by simp [Bytes]) h64
      rw [count_digits_exact 2 8 _ (by simp [Base]) (by simp [Bytes]) h64] at hw
      have := Prints.comp hA hw
      intro s t h
      obtain ⟨s', e, r⟩ := this s t h
      refine ⟨s', ?_, r⟩
      rw [← e]
      unfold Plain.print
      rw [if_neg (by decide), if_pos rfl]
      dsimp only
      unfold digits
      rw [text_length]
    · subst h8
      have e1 : leader enc lc ⟨8, 0, 0, sign, showbase⟩ 0x20 x = if pf ≠ 0 then [0x30] else [] := by
        rw [hpf]
        unfold leaderColumns leader
        cases showbase <;> by_cases hv : x.value = 0 <;> simp [hv]
      have hsm := len_small 8 (magnitude 8 x) (by simp) h64
      have hl := hlead lc
      have hle := leaderColumns_le ⟨8, 0, 0, sign, showbase⟩ x
      rw [hdig, text_length] at hlen
      intro s t h
      unfold Plain.print pokeField
      rw [if_neg (by decide), if_neg (by decide), if_neg (by decide), back_ok 8 (by simp)]
      dsimp only
      rw [← e1, hdig]
      have : (if pf ≠ 0 then 1 else 0) = pf := by
        rw [e1] at hl; by_cases h0 : pf = 0 <;> simp [h0] at hl ⊢ <;> omega
      rw [this, if_pos (by rw [List.length_append, text_length, hl, hlen])]
      exact L.prints_raw (τ := τ) _ _ (by rw [List.length_append, text_length, hl, hlen]; omega) (by omega) s t h
    · exact absurd h0 h10
    · subst h16
      have e1 : leader enc lc ⟨16, 0, 0, sign, showbase⟩ 0x20 x = if pf ≠ 0 then [0x30, baseLetter 16 lc] else [] := by
        rw [hpf, baseLetter_ok]
        unfold leaderColumns leader
        cases showbase <;> simp
      have hsm := len_small 16 (magnitude 16 x) (by simp) h64
      have hl := hlead lc
      have hle := leaderColumns_le ⟨16, 0, 0, sign, showbase⟩ x
      rw [hdig, text_length] at hlen
      intro s t h
      unfold Plain.print pokeField
      rw [if_neg (by decide), if_neg (by decide), if_pos rfl, back_ok 16 (by simp)]
      dsimp only
      rw [← e1, hdig]
      have : (if pf ≠ 0 then 2 else 0) = pf := by
        rw [e1] at hl; by_cases h0 : pf = 0 <;> simp [h0] at hl ⊢ <;> omega
      rw [this, if_pos (by rw [List.length_append, text_length, hl, hlen])]
      exact L.prints_raw (τ := τ) _ _ (by rw [List.length_append, text_length, hl, hlen]; omega) (by omega) s t h
  · rw [plain_width, ← hpf]
    unfold Plain.pre
    rw [if_neg h10]
    dsimp only
    push_cast; omega
  · rw [plain_formatted, List.length_append, hlead, digits_length_lc _ x lc .lower]
    unfold Plain.pre
    rw [if_neg h10]
    dsimp only
    omega

example : formatted (fun c => [c]) .lower [] [] false ⟨8, 0, 0, .negativeOnly, true⟩ .none ⟨true, 1, -1⟩ =
    "0377".toList.map Char.toNat := by decide +kernel

/-- C30/C31/C32 for decimal integers whose format is at most a sign format (`+dec(x)`): they hold only when the
destination has room for the number, see the next theorem. -/
theorem plain_dec_partial (L : Lawful D Rep) (HC : C.Lawful D Rep) (sign : Showsign) (showbase : Bool) (lc : Lettercase)
    (x : IntVal) (hx : x.Ok) :
    ∃ p, Plain.init 10 sign showbase x = some p ∧
      (∀ s t, Rep s t → (formatted C.encodeChar lc [] [] false ⟨10, 0, 0, sign, showbase⟩ .none x).length ≤ D.space s →
        ∃ s', p.print D 10 lc s = some s' ∧
          Rep s' (t ++ formatted C.encodeChar lc [] [] false ⟨10, 0, 0, sign, showbase⟩ .none x) ∧
          D.good s' = D.good s) ∧
      (p.pre 10).width = width [] false ⟨10, 0, 0, sign, showbase⟩ .none x ∧
      (p.pre 10).size = (formatted C.encodeChar lc [] [] false ⟨10, 0, 0, sign, showbase⟩ .none x).length := by
  have hm : magnitude 10 x = x.value.natAbs := rfl
  have hlt := magnitude_lt 10 x hx
  have hc : countDigits 10 x.bytes (magnitude 10 x) = (digits .lower ⟨10, 0, 0, sign, showbase⟩ x).length := by
    rw [count_digits_exact 10 x.bytes _ (by simp [Base]) hx.1 hlt]; unfold digits; rw [text_length]
  obtain ⟨pf, hpf⟩ : ∃ pf, pf = if x.value < 0 then 0x2D else if x.signed then signChar sign else 0 := ⟨_, rfl⟩
  have hinit : Plain.init 10 sign showbase x =
      some ⟨magnitude 10 x, (digits .lower ⟨10, 0, 0, sign, showbase⟩ x).length, pf⟩ := by
    have h2 := hx.2
    unfold Plain.init
    rw [if_pos rfl, ← hc, hpf]
    by_cases hs : x.signed = true
    · rw [if_pos hs] at h2
      simp only [if_pos hs]
      by_cases hv : x.value ≥ 0
      · have hn : ¬ x.value < 0 := by omega
        rw [if_pos hv, if_neg hn, hm, show x.value.toNat = x.value.natAbs by omega]
      · have hn : x.value < 0 := by omega
        rw [if_neg hv, if_pos hn, negSucc_ok x.bytes hx.1 _ h2.1 hn, hm]
    · rw [if_neg hs] at h2
      simp only [if_neg hs]
      have hn : ¬ x.value < 0 := by omega
      rw [if_neg hn, hm, show x.value.toNat = x.value.natAbs by omega]
  have e1 : leader C.encodeChar lc ⟨10, 0, 0, sign, showbase⟩ 0x20 x = if pf ≠ 0 then [pf] else [] := by
    rw [hpf]
    unfold leader
    rw [if_pos rfl]
    by_cases hv : x.value < 0
    · simp [hv]
    · simp only [hv, if_false]
      by_cases hs : x.signed = true
      · simp only [hs, if_true]
        cases sign
        · rfl
        · rfl
        · exact HC.ascii 0x20 (by decide)
      · simp [hs]
  have e2 : leaderColumns ⟨10, 0, 0, sign, showbase⟩ x = if pf ≠ 0 then 1 else 0 := by
    rw [hpf]
    unfold leaderColumns leader
    rw [if_pos rfl]
    by_cases hv : x.value < 0
    · simp [hv]
    · simp only [hv, if_false]
      by_cases hs : x.signed = true
      · simp only [hs, if_true]
        cases sign <;> rfl
      · simp [hs]
  have hlen := digits_length_lc ⟨10, 0, 0, sign, showbase⟩ x lc .lower
  refine ⟨_, hinit, ?_, ?_, ?_⟩
  · rw [plain_formatted, e1]
    intro s t h hsp
    have hd := digits_length_le ⟨10, 0, 0, sign, showbase⟩ (by simp [Base]) x hx lc
    unfold Plain.print pokeField
    rw [if_pos rfl]
    dsimp only
    have hens : Dest.ensure D s (if (digits .lower ⟨10, 0, 0, sign, showbase⟩ x).length + pf ≠ 0 then 1 else 0) = s := by
      unfold Dest.ensure
      rw [if_neg]
      rw [List.length_append] at hsp
      split_ifs <;> omega
    have e : back 10 .lower (magnitude 10 x) = digits lc ⟨10, 0, 0, sign, showbase⟩ x := by
      show back10 (magnitude 10 x) [] = _
      rw [back10_ok lc, List.append_nil]; rfl
    rw [hens, e, if_pos (by rw [List.length_append, hlen]; split_ifs <;> rfl)]
    obtain ⟨s', q1, q2, _, q4⟩ := L.poke s t _ h hsp
    exact ⟨s', q1, q2, q4⟩
  · rw [plain_width, e2]
    unfold Plain.pre
    rw [if_pos rfl]
    dsimp only
    push_cast; omega
  · rw [plain_formatted, e1, List.length_append, hlen]
    unfold Plain.pre
    rw [if_pos rfl]
    dsimp only
    split_ifs <;> simp; omega

/-- C30 fails for `+dec(x)`: the printer asks the destination for one character only (the argument of `ensure` is
`data_.digcount + data_.prefix != 0`). A string_maker that has been given 63 characters has room for one more, and
printing +12345 stores past the end of its buffer. -/
theorem plain_dec_wrong :
    ∃ p s, Plain.init 10 .positiveAlso false ⟨true, 4, 12345⟩ = some p ∧
      Dest.runOps Dest.Maker.dest (Dest.Maker.init (List.replicate 64 0)) [.write (List.replicate 63 46)] = some s ∧
      p.print Dest.Maker.dest 10 .lower s = none :=
  ⟨_, _, rfl, rfl, by decide +kernel⟩

/-! ### int_printer_static_base_and_punct<Base, true> -/

theorem length_le_sum (l : List Nat) (h : ∀ x ∈ l, 1 ≤ x) : l.length ≤ l.sum := by
  induction l with
  | nil => simp
  | cons a l ih =>
    have h1 := h a (by simp)
    have h2 := ih (fun x hx => h x (by simp [hx]))
    simp only [List.length_cons, List.sum_cons]; omega

theorem groups_length_le (gs : List Nat) (rep : Bool) (hg : Valid gs rep) (fmt : Fmt) (hb : Base fmt.base) (x : IntVal)
    (hx : x.Ok) : (groups gs rep fmt x).length ≤ 64 := by
  have h1 := digits_length_le fmt hb x hx .lower
  have hp : 1 ≤ (digits .lower fmt x).length := by
    unfold digits; rw [text_length]; exact len_pos _ _ (by rcases hb with h | h | h | h <;> omega)
  obtain ⟨m1, m2, _⟩ := split_meaning gs rep hg _ hp
  have := length_le_sum _ m2
  unfold groups
  rw [List.length_reverse]; omega

/-- the separator can be encoded, or there is none to print -/
def SepOk (C : Charset σ) (sepchar : Nat) (n : Nat) : Prop := n = 1 ∨ sepchar < 0x80 ∨ C.validate sepchar ≠ none

/-- the digits and separators of a punctuated integer -/
theorem punct_digits_ok (L : Lawful D Rep) (HC : C.Lawful D Rep) (fmt : Fmt) (hb : Base fmt.base) (lc : Lettercase)
    (x : IntVal) (hx : x.Ok) (gs : List Nat) (rep : Bool) (hg : Valid gs rep) (sepchar : Nat)
    (hs : SepOk C sepchar (groups gs rep fmt x).length)
    (h2 : fmt.base ≠ 2 ∨ (C.encodeChar sepchar).length ≠ 1 ∨ (groups gs rep fmt x).length = 1) :
    ∃ sepsize, punctPart C (digits .lower fmt x).length sepchar (ctor2 (args gs rep)) =
        ((groups gs rep fmt x).length - 1, sepsize, ctor2 (args gs rep)) ∧
      ((groups gs rep fmt x).length - 1) * sepsize =
        ((groups gs rep fmt x).length - 1) * (C.encodeChar sepchar).length ∧
      Prints τ D Rep (fun s => if (groups gs rep fmt x).length - 1 = 0 then
            writeInt D fmt.base lc (magnitude fmt.base x) (digits .lower fmt x).length s
          else if sepsize = 1 then
            match sepUnit C sepchar with
            | none => none
            | some u => writeIntLittle D fmt.base lc u (magnitude fmt.base x) (ctor2 (args gs rep))
                (digits .lower fmt x).length ((groups gs rep fmt x).length - 1) s
          else writeIntBig D fmt.base lc (C.encodeChar sepchar) (magnitude fmt.base x) (ctor2 (args gs rep))
            (digits .lower fmt x).length s)
        (grouped (C.encodeChar sepchar) (groups gs rep fmt x) (digits lc fmt x)) := by
  have h64 := magnitude_lt64 fmt.base x hx
  have hne := (groups_sum gs rep fmt x).2
  have hlpos : 1 ≤ (groups gs rep fmt x).length := by
    cases h : groups gs rep fmt x with
    | nil => exact absurd h hne
    | cons a l => simp
  have hcount : separatorsCount (ctor2 (args gs rep)) (digits .lower fmt x).length = (groups gs rep fmt x).length - 1 := by
    rw [separators_count_exact gs rep hg]; unfold groups; rw [List.length_reverse]
  have hcd : countDigits fmt.base 8 (magnitude fmt.base x) = (digits .lower fmt x).length := by
    rw [count_digits_exact fmt.base 8 _ hb (by simp [Bytes]) h64]; unfold digits; rw [text_length]
  have hgr : groups gs rep fmt x = (split gs rep (text fmt.base lc (magnitude fmt.base x)).length).reverse := by
    unfold groups; rw [digits_length_lc fmt x .lower lc]; rfl
  by_cases h1 : (groups gs rep fmt x).length = 1
  · refine ⟨1, ?_, by rw [h1]; simp, ?_⟩
    · unfold punctPart
      dsimp only
      rw [hcount, h1, if_neg (by simp)]
    · rw [h1]
      simp only [Nat.sub_self, if_true]
      rw [groups_single gs rep fmt x h1, grouped_one _ _ _ (digits_length_lc _ _ _ _), ← hcd]
      exact write_int_exact L fmt.base 8 _ lc hb (by simp [Bytes]) h64
  · have hn0 : ¬ (groups gs rep fmt x).length - 1 = 0 := by omega
    refine ⟨(C.encodeChar sepchar).length, ?_, rfl, ?_⟩
    · unfold punctPart
      dsimp only
      rw [hcount]
      by_cases h8 : sepchar ≥ 0x80
      · rw [if_pos ⟨h8, hn0⟩]
        rcases hs with h | h | h
        · exact absurd h h1
        · omega
        · cases hv : C.validate sepchar with
          | none => exact absurd hv h
          | some n => dsimp only; rw [HC.valid _ _ hv]
      · rw [if_neg (fun h => h8 h.1), HC.ascii sepchar (by omega)]; rfl
    · simp only [hn0, if_false]
      by_cases hl : (C.encodeChar sepchar).length = 1
      · have hb2 : fmt.base ≠ 2 := by rcases h2 with h | h | h <;> [exact h; exact absurd hl h; exact absurd h h1]
        have hu : ∃ u, sepUnit C sepchar = some u ∧ C.encodeChar sepchar = [u] := by
          unfold sepUnit
          by_cases h8 : sepchar ≥ 0x80
          · rw [if_pos h8]
            obtain ⟨u, hu⟩ := List.length_eq_one_iff.mp hl
            exact ⟨u, by rw [hu], hu⟩
          · rw [if_neg h8]; exact ⟨_, rfl, HC.ascii _ (by omega)⟩
        obtain ⟨u, hu1, hu2⟩ := hu
        simp only [hl, if_true, hu1]
        have := write_int_little_sep_exact_partial (τ := τ) L fmt.base 8 (magnitude fmt.base x) u lc hb hb2 (by simp [Bytes]) h64 gs rep hg
          (by rw [hcd, hcount]; omega)
        rw [hcd, hcount, ← hgr] at this
        rw [hu2]
        exact this
      · simp only [hl, if_false]
        have := write_int_big_sep_exact (τ := τ) L fmt.base 8 (magnitude fmt.base x) (C.encodeChar sepchar)
          (by have := (HC.short sepchar).2; omega) lc hb (by simp [Bytes]) h64 gs rep hg
        rw [hcd, ← hgr] at this
        exact this

/-- C30/C31/C32: punctuated integers (`!x` formats) with any numpunct facet, base, precision, pad0, sign and alignment
formats. For every integer type, value, format, destination and charset: the printer can be constructed, printing
writes exactly the specified text, never outside the destination's buffer, and the width and size it adds to the
premeasurements are those of the text.
Missing: separators that the charset cannot encode (see `invalid_separator_wrong`) and binary numbers with a one-unit
separator (see `bin_punct_wrong`), where the code does not do what it should; precisions above 2147483582
(`precision_overflow_wrong`). -/
theorem punct_int_exact_partial (L : Lawful D Rep) (HC : C.Lawful D Rep) (fmt : Fmt) (hf : Fmt.Ok fmt) (a : AlignFmt)
    (lay : Layout) (hl : LayoutOf a lay) (lc : Lettercase) (gs : List Nat) (rep : Bool) (hg : Valid gs rep)
    (sepchar : Nat) (x : IntVal) (hx : x.Ok) (hs : SepOk C sepchar (groups gs rep fmt x).length)
    (h2 : fmt.base ≠ 2 ∨ (C.encodeChar sepchar).length ≠ 1 ∨ (groups gs rep fmt x).length = 1) :
    ∃ p pre, PData.make C fmt a sepchar (ctor2 (args gs rep)) x = some (p, pre) ∧
      Prints τ D Rep (p.print D C fmt.base lc) (formatted C.encodeChar lc (C.encodeChar sepchar) gs rep fmt lay x) ∧
      pre.width = width gs rep fmt lay x ∧
      pre.size = (formatted C.encodeChar lc (C.encodeChar sepchar) gs rep fmt lay x).length := by
  have hlay := hl.columns
  obtain ⟨d0, e0, hv, hsg⟩ := init1_ok fmt.base hf.1 fmt.sign x hx .zero
  obtain ⟨d', e1, hr⟩ := ready_of_init1 fmt hf.1 x hx d0 hv hsg
  have hgl := groups_length_le gs rep hg fmt hf.1 x hx
  have ez := zerosPart_ok fmt hf x hx ((groups gs rep fmt x).length - 1) (by omega)
  rw [← zeros_eq, show leaderColumns fmt x + (digits .lower fmt x).length + ((groups gs rep fmt x).length - 1) = columns gs rep fmt x from rfl] at ez
  have hr' : Ready fmt x { d' with leadingZeros := zeros gs rep fmt x } := ⟨hr.1, hr.2, hr.3, hr.4, hr.5⟩
  obtain ⟨p1, p2, p3, p4, p5, p6, p7, p8, p9, p10⟩ := fillPart_ok (τ := τ) L HC lc fmt hf.1 x a
    (columns gs rep fmt x + zeros gs rep fmt x) _ hr'
  have hmiss : (Width.round a.width - ((columns gs rep fmt x + zeros gs rep fmt x : Nat) : Int)).toNat = missing gs rep fmt lay x := by
    unfold missing; rw [hlay]
  obtain ⟨sepsize, hpp, hss, hdg⟩ := punct_digits_ok (τ := τ) L HC fmt hf.1 lc x hx gs rep hg sepchar hs h2
  have hcd : countDigits fmt.base 8 d0.uvalue = (digits .lower fmt x).length := by
    rw [hv, count_digits_exact fmt.base 8 _ hf.1 (by simp [Bytes]) (magnitude_lt64 _ x hx)]; unfold digits; rw [text_length]
  have ei : initPunct C fmt a sepchar (ctor2 (args gs rep)) d0 =
      some (⟨(fillPart fmt.base a ((columns gs rep fmt x + zeros gs rep fmt x : Nat) : Int)
        { d' with leadingZeros := zeros gs rep fmt x }).1, (groups gs rep fmt x).length - 1, sepsize, sepchar, ctor2 (args gs rep)⟩,
        { (fillPart fmt.base a ((columns gs rep fmt x + zeros gs rep fmt x : Nat) : Int)
        { d' with leadingZeros := zeros gs rep fmt x }).2 with subWidth := (fillPart fmt.base a ((columns gs rep fmt x + zeros gs rep fmt x : Nat) : Int)
        { d' with leadingZeros := zeros gs rep fmt x }).2.subWidth - ((groups gs rep fmt x).length - 1 : Nat) }) := by
    unfold initPunct
    dsimp only
    rw [e1]
    dsimp only
    rw [hcd, hpp]
    dsimp only
    rw [hr.digcount, ez]
  unfold PData.make
  rw [e0]
  dsimp only
  rw [ei]
  generalize fillPart fmt.base a ((columns gs rep fmt x + zeros gs rep fmt x : Nat) : Int)
      { d' with leadingZeros := zeros gs rep fmt x } = r at *
  obtain ⟨d2, w⟩ := r
  dsimp only at p1 p2 p3 p4 p5 p6 p7 p8 p9 p10 ⊢
  have hlf : lay.fill = a.fill := by rw [hlay]
  have hla : lay.align = a.align := by rw [hlay]
  obtain ⟨q1, q2⟩ := pre_ok HC lc fmt x (C.encodeChar sepchar) gs rep lay w p7 (by rw [p8, hmiss])
    (fun h => by rw [← hmiss, hlf]; exact p9 h) (fun h => by rw [← hmiss]; exact p10 h)
  refine ⟨_, _, rfl, ?_, by dsimp only; rw [← q1]; omega, ?_⟩
  · have := assemble p1 (L.prints_fill (τ := τ) (zeros gs rep fmt x : Int) 0x30) hdg (printFill_ok HC d2.rightFill d2.fillchar)
    rw [p2, p3, Int.toNat_natCast, Int.toNat_natCast, hmiss] at this
    have ef : formatted C.encodeChar lc (C.encodeChar sepchar) gs rep fmt lay x =
        times C.encodeChar (before a.align (missing gs rep fmt lay x)) a.fill ++ leader C.encodeChar lc fmt a.fill x ++
          List.replicate (zeros gs rep fmt x) 48 ++ grouped (C.encodeChar sepchar) (groups gs rep fmt x) (digits lc fmt x) ++
          times C.encodeChar (missing gs rep fmt lay x - before a.align (missing gs rep fmt lay x)) a.fill := by
      unfold formatted
      dsimp only
      rw [hlf, hla]
    rw [ef]
    unfold PData.print
    dsimp only
    rw [p5, p4, p6, p3]
    try dsimp only
    rw [hr.uvalue, hr.digcount, p2, hmiss]
    exact this
  · dsimp only
    rw [← q2, hss, hlf]
    split_ifs with hh
    · rfl
    · have : w.fillcount.toNat = 0 := by omega
      rw [this]; simp

/-- 1234567 punctuated by threes with U+2019, right-aligned in 13 columns: the theorem's hypotheses hold. -/
example : Fmt.Ok ⟨10, 0, 0, .positiveAlso, false⟩ ∧ LayoutOf ⟨0x2A, .right, 13 * 65536⟩ ⟨0x2A, .right, 13⟩ ∧
    Valid [3] true ∧ IntVal.Ok ⟨true, 4, 1234567⟩ ∧
    SepOk (utf Dest.Maker.dest .utf8) 0x2019 (groups [3] true ⟨10, 0, 0, .positiveAlso, false⟩ ⟨true, 4, 1234567⟩).length ∧
    formatted (Utf.encodeChar .utf8) .lower (Utf.encodeChar .utf8 0x2019) [3] true ⟨10, 0, 0, .positiveAlso, false⟩
      ⟨0x2A, .right, 13⟩ ⟨true, 4, 1234567⟩ =
      "***+1".toList.map Char.toNat ++ [0xE2, 0x80, 0x99] ++ "234".toList.map Char.toNat ++ [0xE2, 0x80, 0x99] ++
        "567".toList.map Char.toNat := by
  refine ⟨⟨by simp [Base], by decide, by decide⟩, ⟨rfl, rfl, by unfold CInt.InI32; decide, ?_⟩,
    ⟨by decide, by decide, by decide⟩, by decide, .inr (.inr (by decide +kernel)), by decide +kernel⟩
  unfold WidthSpec.IsRound; left; decide

/-- C31/C32 fail for separators that the charset cannot encode: printing 1000 with the separator U+D800 in UTF-8, in
a width of six columns. The separator is left out, but its column is counted: the text has only five columns, although
the width reported is six. -/
theorem invalid_separator_wrong :
    (PData.make (utf Dest.Maker.dest .utf8) ⟨10, 0, 0, .negativeOnly, false⟩ ⟨0x2A, .right, 6 * 65536⟩ 0xD800
        (ctor2 (args [3] true)) ⟨true, 4, 1000⟩).map (·.2) = some ⟨6, 5⟩ ∧
    (PData.make (utf Dest.Maker.dest .utf8) ⟨10, 0, 0, .negativeOnly, false⟩ ⟨0x2A, .right, 6 * 65536⟩ 0xD800
        (ctor2 (args [3] true)) ⟨true, 4, 1000⟩).bind (fun r =>
      (r.1.print Dest.Maker.dest (utf Dest.Maker.dest .utf8) 10 .lower (Dest.Maker.init (List.replicate 64 0))).map
        (fun s => (Dest.Maker.finishE true s).2)) = some (some ("*1000".toList.map Char.toNat)) := by
  refine ⟨?_, ?_⟩ <;> decide +kernel

/-- C30 fails for binary numbers punctuated with a one-unit separator: after 64 characters, with no room left in the
buffer, the first group is stored without asking for room. -/
theorem bin_punct_wrong :
    ∃ s, Dest.runOps Dest.Maker.dest (Dest.Maker.init (List.replicate 64 0)) [.write (List.replicate 64 46)] = some s ∧
      (PData.make (utf Dest.Maker.dest .utf8) ⟨2, 0, 0, .negativeOnly, false⟩ ⟨0x20, .right, 0⟩ 0x2C
        (ctor2 (args [2] true)) ⟨true, 4, 5⟩).map (fun r =>
          (r.1.print Dest.Maker.dest (utf Dest.Maker.dest .utf8) 2 .lower s).isNone) = some true :=
  ⟨_, rfl, by decide +kernel⟩

/-- C32 fails for huge precisions: with the precision INT_MAX the sum of the zeros and the sign overflows `int`. -/
theorem precision_overflow_wrong :
    Data.make (utf Dest.Maker.dest .utf8) ⟨10, 2147483647, 0, .positiveAlso, false⟩ none ⟨true, 4, 1⟩ = none ∧
    PData.make (utf Dest.Maker.dest .utf8) ⟨10, 2147483647, 0, .positiveAlso, false⟩ ⟨0x20, .right, 0⟩ 0x2C
        (ctor2 (args [3] true)) ⟨true, 4, 1⟩ = none := by
  refine ⟨?_, ?_⟩ <;> decide +kernel

/-! ### int_printer_full_dynamic -/

/-- C30/C31/C32 for integers whose base is given at run time: any base other than 2, 8 and 16 is 10, and the facet is
the one of that base; without punctuation there is one group. Missing: as in `punct_int_exact_partial`. -/
theorem dyn_int_exact_partial (L : Lawful D Rep) (HC : C.Lawful D Rep) (fmt : Fmt) (hp : fmt.precision ≤ 2147483582)
    (h0 : fmt.pad0 ≤ 2147483647) (base : Nat)
    (hbase : base = if fmt.base = 2 ∨ fmt.base = 8 ∨ fmt.base = 16 then fmt.base else 10) (punctuate : Bool)
    (a : AlignFmt) (lay : Layout) (hl : LayoutOf a lay) (lc : Lettercase) (facet : Nat → Punct) (gs : List Nat)
    (rep : Bool) (hg : Valid gs rep)
    (hgp : if punctuate then (facet base).grouping = ctor2 (args gs rep) else gs = [] ∧ rep = false)
    (x : IntVal) (hx : x.Ok) (hs : SepOk C (facet base).sep (groups gs rep { fmt with base := base } x).length)
    (h2 : base ≠ 2 ∨ (C.encodeChar (facet base).sep).length ≠ 1 ∨ (groups gs rep { fmt with base := base } x).length = 1) :
    ∃ r, dynMake C fmt punctuate a facet x = some r ∧
      Prints τ D Rep (dynPrint D C lc r)
        (formatted C.encodeChar lc (C.encodeChar (facet base).sep) gs rep { fmt with base := base } lay x) ∧
      r.2.2.width = width gs rep { fmt with base := base } lay x ∧
      r.2.2.size =
        (formatted C.encodeChar lc (C.encodeChar (facet base).sep) gs rep { fmt with base := base } lay x).length := by
  have hb : Base base := by
    rw [hbase]; unfold Base; split_ifs <;> omega
  have eb : (if fmt.base = 16 then 16 else if fmt.base = 8 then 8 else if fmt.base = 2 then 2 else 10) = base := by
    rw [hbase]; split_ifs <;> omega
  have hf : Fmt.Ok { fmt with base := base } := ⟨hb, hp, h0⟩
  unfold dynMake
  rw [eb]
  dsimp only
  cases punctuate with
  | true =>
    simp only [if_true] at hgp ⊢
    obtain ⟨p, pre, e, h1, h3, h4⟩ := punct_int_exact_partial L HC _ hf a lay hl lc gs rep hg (facet base).sep x hx hs h2
    rw [hgp, e]
    exact ⟨_, rfl, h1, h3, h4⟩
  | false =>
    simp only [Bool.false_eq_true, if_false] at hgp ⊢
    obtain ⟨rfl, rfl⟩ := hgp
    have h1 : (groups [] false { fmt with base := base } x).length = 1 := by rw [groups_none]; rfl
    obtain ⟨p, pre, e, h1, h3, h4⟩ := punct_int_exact_partial L HC _ hf a lay hl lc [] false hg 0x2C x hx (.inl h1) (.inr (.inr h1))
    have ef : formatted C.encodeChar lc (C.encodeChar (facet base).sep) [] false { fmt with base := base } lay x =
        formatted C.encodeChar lc (C.encodeChar 0x2C) [] false { fmt with base := base } lay x := by
      unfold formatted
      dsimp only
      rw [groups_none, grouped_one _ _ _ (digits_length_lc _ _ _ _), grouped_one _ _ _ (digits_length_lc _ _ _ _)]
    rw [ef, show emptyWord = ctor2 (args [] false) from rfl, e]
    exact ⟨_, rfl, h1, h3, h4⟩

/-- base 7 is printed in decimal -/
example : (dynMake (utf Dest.Maker.dest .utf8) ⟨7, 0, 0, .negativeOnly, false⟩ true ⟨0x20, .right, 0⟩
      (fun _ => ⟨ctor2 (args [3] true), 0x2C⟩) ⟨true, 4, -1234⟩).bind (fun r =>
      (dynPrint Dest.Maker.dest (utf Dest.Maker.dest .utf8) .lower r (Dest.Maker.init (List.replicate 64 0))).map
        (fun s => (Dest.Maker.finishE true s).2)) = some (some ("-1,234".toList.map Char.toNat)) := by decide +kernel

end Strf.IntPrinter

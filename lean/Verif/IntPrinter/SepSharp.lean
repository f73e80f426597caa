import Verif.IntPrinter.Props
/-
C31, C32: exactly what is printed when the separator cannot be encoded.
-/
namespace Strf.IntPrinter
open Spec Strf.IntDigits Strf.IntDigits.Spec Strf.Numpunct Strf.Numpunct.Spec Strf.Print
open Strf.Dest (Dest Lawful Prints)

variable {σ : Type} {D : Dest Nat σ} {Rep : σ → List Nat → Prop} {C : Charset σ}

theorem punct_digits_invalid (L : Lawful D Rep) (HC : C.Lawful D Rep) (fmt : Fmt) (hb : Base fmt.base) (lc : Lettercase)
    (x : IntVal) (hx : x.Ok) (gs : List Nat) (rep : Bool) (hg : Valid gs rep) (sepchar : Nat)
    (h8 : 0x80 ≤ sepchar) (hv : C.validate sepchar = none) (hk : 1 < (groups gs rep fmt x).length) :
    punctPart C (digits .lower fmt x).length sepchar (ctor2 (args gs rep)) =
        ((groups gs rep fmt x).length - 1, 0, emptyWord) ∧
      ((groups gs rep fmt x).length - 1) * 0 = ((groups gs rep fmt x).length - 1) * ([] : List Nat).length ∧
      Prints τ D Rep (fun s => if (groups gs rep fmt x).length - 1 = 0 then
            writeInt D fmt.base lc (magnitude fmt.base x) (digits .lower fmt x).length s
          else if 0 = 1 then
            match sepUnit C sepchar with
            | none => none
            | some u => writeIntLittle D fmt.base lc u (magnitude fmt.base x) emptyWord
                (digits .lower fmt x).length ((groups gs rep fmt x).length - 1) s
          else writeIntBig D fmt.base lc (C.encodeChar sepchar) (magnitude fmt.base x) emptyWord
            (digits .lower fmt x).length s)
        (grouped [] (groups gs rep fmt x) (digits lc fmt x)) := by
  have h64 := magnitude_lt64 fmt.base x hx
  have hcount : separatorsCount (ctor2 (args gs rep)) (digits .lower fmt x).length = (groups gs rep fmt x).length - 1 := by
    rw [separators_count_exact gs rep hg]; unfold groups; rw [List.length_reverse]
  have hcd : countDigits fmt.base 8 (magnitude fmt.base x) = (digits .lower fmt x).length := by
    rw [count_digits_exact fmt.base 8 _ hb (by simp [Bytes]) h64]; unfold digits; rw [text_length]
  refine ⟨?_, by simp, ?_⟩
  · unfold punctPart
    dsimp only
    rw [hcount, if_pos ⟨h8, by omega⟩, hv]
  · have hgd : grouped [] (groups gs rep fmt x) (digits lc fmt x) = digits lc fmt x := by
      obtain ⟨ps, e1, e2, e3, _⟩ := grouped_meaning [] (groups gs rep fmt x) (digits lc fmt x)
        (by rw [(groups_sum gs rep fmt x).1, digits_length_lc fmt x .lower lc]) (groups_sum gs rep fmt x).2
      rw [e1, ← e2]
      clear e1 e2 e3
      induction ps with
      | nil => rfl
      | cons p ps ih =>
        cases ps with
        | nil => simp [List.intercalate]
        | cons q ps => rw [IntDigits.intercalate_cons _ _ _ (by simp), ih]; simp
    rw [hgd]
    have hw := write_int_big_sep_exact (τ := τ) L fmt.base 8 (magnitude fmt.base x) (C.encodeChar sepchar)
      (by have := (HC.short sepchar).2; omega) lc hb (by simp [Bytes]) h64 [] false (by decide)
    rw [hcd] at hw
    have e : grouped (C.encodeChar sepchar) (split [] false (text fmt.base lc (magnitude fmt.base x)).length).reverse
        (text fmt.base lc (magnitude fmt.base x)) = digits lc fmt x := by
      rw [split, splitFrom_nil]
      exact grouped_one _ _ _ rfl
    rw [e] at hw
    have hn0 : ¬ (groups gs rep fmt x).length - 1 = 0 := by omega
    simp only [hn0, if_false, show ¬ (0 = 1) by decide]
    exact hw

/-- C31/C32 when the charset cannot encode the separator: the digits are printed without separators, but the columns of the
separators are counted: the fill characters are as many as if they were there, the width reported is that of the number
with separators, the size that of the text printed. -/
theorem punct_int_invalid_sep (L : Lawful D Rep) (HC : C.Lawful D Rep) (fmt : Fmt) (hf : Fmt.Ok fmt) (a : AlignFmt)
    (lay : Layout) (hl : LayoutOf a lay) (lc : Lettercase) (gs : List Nat) (rep : Bool) (hg : Valid gs rep)
    (sepchar : Nat) (x : IntVal) (hx : x.Ok) (h8 : 0x80 ≤ sepchar) (hv : C.validate sepchar = none)
    (hk : 1 < (groups gs rep fmt x).length) :
    ∃ p pre, PData.make C fmt a sepchar (ctor2 (args gs rep)) x = some (p, pre) ∧
      Prints τ D Rep (p.print D C fmt.base lc) (formatted C.encodeChar lc [] gs rep fmt lay x) ∧
      pre.width = width gs rep fmt lay x ∧
      pre.size = (formatted C.encodeChar lc [] gs rep fmt lay x).length := by
  have hlay := hl.columns
  obtain ⟨d0, e0, hdv, hsg⟩ := init1_ok fmt.base hf.1 fmt.sign x hx .zero
  obtain ⟨d', e1, hr⟩ := ready_of_init1 fmt hf.1 x hx d0 hdv hsg
  have hgl := groups_length_le gs rep hg fmt hf.1 x hx
  have ez := zerosPart_ok fmt hf x hx ((groups gs rep fmt x).length - 1) (by omega)
  rw [← zeros_eq, show leaderColumns fmt x + (digits .lower fmt x).length + ((groups gs rep fmt x).length - 1) = columns gs rep fmt x from rfl] at ez
  have hr' : Ready fmt x { d' with leadingZeros := zeros gs rep fmt x } := ⟨hr.1, hr.2, hr.3, hr.4, hr.5⟩
  obtain ⟨p1, p2, p3, p4, p5, p6, p7, p8, p9, p10⟩ := fillPart_ok (τ := τ) L HC lc fmt hf.1 x a
    (columns gs rep fmt x + zeros gs rep fmt x) _ hr'
  have hmiss : (Width.round a.width - ((columns gs rep fmt x + zeros gs rep fmt x : Nat) : Int)).toNat = missing gs rep fmt lay x := by
    unfold missing; rw [hlay]
  obtain ⟨hpp, hss, hdg⟩ := punct_digits_invalid (τ := τ) L HC fmt hf.1 lc x hx gs rep hg sepchar h8 hv hk
  have hcd : countDigits fmt.base 8 d0.uvalue = (digits .lower fmt x).length := by
    rw [hdv, count_digits_exact fmt.base 8 _ hf.1 (by simp [Bytes]) (magnitude_lt64 _ x hx)]; unfold digits; rw [text_length]
  have ei : initPunct C fmt a sepchar (ctor2 (args gs rep)) d0 =
      some (⟨(fillPart fmt.base a ((columns gs rep fmt x + zeros gs rep fmt x : Nat) : Int)
        { d' with leadingZeros := zeros gs rep fmt x }).1, (groups gs rep fmt x).length - 1, 0, sepchar, emptyWord⟩,
        { (fillPart fmt.base a ((columns gs rep fmt x + zeros gs rep fmt x : Nat) : Int)
        { d' with leadingZeros := zeros gs rep fmt x }).2 with subWidth := (fillPart fmt.base a ((columns gs rep fmt x + zeros gs rep fmt x : Nat) : Int)
        { d' with leadingZeros := zeros gs rep fmt x }).2.subWidth - ((groups gs rep fmt x).length - 1 : Nat) }) := by
    unfold initPunct
    dsimp only
    rw [e1]
    dsimp only
    rw [hcd, hpp]
    dsimp only
    rw [hr.digcount, ez]
  unfold PData.make
  rw [e0]
  dsimp only
  rw [ei]
  generalize fillPart fmt.base a ((columns gs rep fmt x + zeros gs rep fmt x : Nat) : Int)
      { d' with leadingZeros := zeros gs rep fmt x } = r at *
  obtain ⟨d2, w⟩ := r
  dsimp only at p1 p2 p3 p4 p5 p6 p7 p8 p9 p10 ⊢
  have hlf : lay.fill = a.fill := by rw [hlay]
  have hla : lay.align = a.align := by rw [hlay]
  obtain ⟨q1, q2⟩ := pre_ok HC lc fmt x [] gs rep lay w p7 (by rw [p8, hmiss])
    (fun h => by rw [← hmiss, hlf]; exact p9 h) (fun h => by rw [← hmiss]; exact p10 h)
  refine ⟨_, _, rfl, ?_, by dsimp only; rw [← q1]; omega, ?_⟩
  · have := assemble p1 (L.prints_fill (τ := τ) (zeros gs rep fmt x : Int) 0x30) hdg (printFill_ok HC d2.rightFill d2.fillchar)
    rw [p2, p3, Int.toNat_natCast, Int.toNat_natCast, hmiss] at this
    have ef : formatted C.encodeChar lc [] gs rep fmt lay x =
        times C.encodeChar (before a.align (missing gs rep fmt lay x)) a.fill ++ leader C.encodeChar lc fmt a.fill x ++
          List.replicate (zeros gs rep fmt x) 48 ++ grouped [] (groups gs rep fmt x) (digits lc fmt x) ++
          times C.encodeChar (missing gs rep fmt lay x - before a.align (missing gs rep fmt lay x)) a.fill := by
      unfold formatted
      dsimp only
      rw [hlf, hla]
    rw [ef]
    unfold PData.print
    dsimp only
    rw [p5, p4, p6, p3]
    try dsimp only
    rw [hr.uvalue, hr.digcount, p2, hmiss]
    exact this
  · dsimp only
    rw [← q2, hss, hlf]
    split_ifs with hh
    · rfl
    · have : w.fillcount.toNat = 0 := by omega
      rw [this]; simp

/-- C31/C32, exactly: a number that is printed with separators which the charset cannot encode lacks as many columns as
it should have separators (here: with a separator of one unit). -/
theorem invalid_sep_columns (enc : Nat → List Nat) (u : Nat) (lc : Lettercase)
    (gs : List Nat) (rep : Bool) (fmt : Fmt) (lay : Layout) (x : IntVal) :
    (formatted enc lc [] gs rep fmt lay x).length + ((groups gs rep fmt x).length - 1) =
      (formatted enc lc [u] gs rep fmt lay x).length := by
  have hs := (groups_sum gs rep fmt x).1
  have hne := (groups_sum gs rep fmt x).2
  have hl : ∀ sep : List Nat, (grouped sep (groups gs rep fmt x) (digits lc fmt x)).length =
      (digits lc fmt x).length + ((groups gs rep fmt x).length - 1) * sep.length := by
    intro sep
    obtain ⟨_, _, _, _, e⟩ := grouped_meaning sep (groups gs rep fmt x) (digits lc fmt x)
      (by rw [hs, digits_length_lc fmt x .lower lc]) hne
    exact e
  unfold formatted
  simp only [List.length_append, hl, List.length_nil, List.length_singleton]
  omega

/-- U+D800 in UTF-8: the hypotheses hold of 1000 by threes -/
example : 0x80 ≤ 0xD800 ∧ (utf Dest.Maker.dest .utf8).validate 0xD800 = none ∧
    1 < (groups [3] true ⟨10, 0, 0, .negativeOnly, false⟩ ⟨true, 4, 1000⟩).length ∧
    formatted (Utf.encodeChar .utf8) .lower [] [3] true ⟨10, 0, 0, .negativeOnly, false⟩ ⟨0x2A, .right, 6⟩ ⟨true, 4, 1000⟩ =
      "*1000".toList.map Char.toNat := by
  refine ⟨by decide, by decide +kernel, by decide +kernel, by decide +kernel⟩

end Strf.IntPrinter

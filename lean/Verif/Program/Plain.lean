import Verif.Program.TrCallProps
import Verif.Dragonbox.Props
/-!
# C80: calls without facets and formats

The arguments are what most calls consist of: numbers, strings, characters, booleans and pointers without format functions. What is
printed is stated anew here, without reference to formats, facets and the conditions of C73: there are none.
-/
namespace Strf.Program
open Strf.Format
open Strf.Print (Item Meaning AllMean total printPlain printAll lineText txt ssizeMax padded)
open Strf.Dest (Dest Lawful Prints Maker Writer World)
open Strf.IntDigits.Spec (text)
open Strf.IntPrinter (AlignFmt)
open Strf.Float (FloatT Finite signBit expBits manBits precision specNotation usedGroups)
open Strf.Float.Spec (readNumber)
open Strf.Dragonbox.Spec (ReadsAs)

/-- an argument without format -/
inductive PlainArg
  | int (t : IntTy) (x : Int)
  | float (F : FloatT) (bits : Nat)
  | bool (x : Bool)
  | ptr (address : Nat)
  /-- a string of the character type of the destination -/ | str (src : List Nat)
  /-- a character of that type -/ | chr (u : Nat)
  /-- a `char32_t` that is a Unicode scalar value -/ | chr32 (c : Nat)

/-- the encoding that is the default charset of a character type -/
def encOf : CharT → Utf.Enc
  | .char | .char8 => .utf8
  | .char16 => .utf16
  | .char32 => .utf32
  | .wchar four => if four then .utf32 else .utf16

/-- the value is one of the type (and a string fits in memory) -/
def PlainArg.Ok (T : CharT) : PlainArg → Prop
  | .int t x => if t.signed then -(2 ^ (8 * t.bytes - 1)) ≤ x ∧ x < 2 ^ (8 * t.bytes - 1) else 0 ≤ x ∧ x < 2 ^ (8 * t.bytes)
  | .ptr address => address < 2 ^ 64
  | .str src => T.Units src ∧ src.length < ssizeMax
  | .chr u => T.Units [u]
  | .chr32 c => Utf.Scalar false c
  | _ => True

/-- What the argument says. -/
inductive Says (T : CharT) : PlainArg → List Nat → Prop
  /-- an integer: its decimal digits, after the minus sign if it is negative -/
  | int {t x} : Says T (.int t x) ((if x < 0 then [0x2D] else []) ++ text 10 .lower x.natAbs)
  /-- a finite floating-point number: a number that is read back as that number, with its sign -/
  | float {F bits t q} : Finite F bits → readNumber t = some (signBit F bits, q) →
    ReadsAs F.mSize F.eSize (expBits F bits) (manBits F bits) q → Says T (.float F bits) t
  | infinity {F bits} : ¬ Finite F bits → manBits F bits = 0 → Says T (.float F bits) ((if signBit F bits then [0x2D] else []) ++ txt "inf")
  | nan {F bits} : ¬ Finite F bits → manBits F bits ≠ 0 → Says T (.float F bits) ((if signBit F bits then [0x2D] else []) ++ txt "nan")
  | true : Says T (.bool true) (txt "true")
  | false : Says T (.bool false) (txt "false")
  /-- a pointer: 0x and the hexadecimal digits -/
  | ptr {address} : Says T (.ptr address) (txt "0x" ++ text 16 .lower address)
  /-- a string or a character: itself -/
  | str {src} : Says T (.str src) src
  | chr {u} : Says T (.chr u) [u]
  /-- a `char32_t`: encoded in the default encoding -/
  | chr32 {c} : Says T (.chr32 c) (Utf.encode (encOf T) c)

/-- the argument of the call -/
def PlainArg.arg (T : CharT) : PlainArg → Arg
  | .int t x => .int t [] x
  | .float F bits => .float F [] bits
  | .bool x => .bool none x
  | .ptr address => .ptr [] address
  | .str src => .str T [] src
  | .chr u => .rawChr T u
  | .chr32 c => .rawChr .char32 c

/-- `destination(args...)`, or `destination.line(args...)`: no facets -/
def plainCall (T : CharT) (eol : Bool) (l : List PlainArg) : Call where
  eol := eol
  withs := []
  facets := []
  args := l.map (·.arg T)

/-- What is printed: what the arguments say, one after the other, and the end of the line. -/
def SaysAll (T : CharT) (eol : Bool) (l : List PlainArg) (t : List Nat) : Prop :=
  ∃ texts, List.Forall₂ (Says T) l texts ∧ t = texts.flatten ++ if eol then [0x0A] else []

/-! ## Proof -/

variable {σ : Type} {D : Dest Nat σ} {Rep : σ → List Nat → Prop} {T : CharT} {sg : CharT → Bool}

/-- the default charsets -/
def utfs : CharT → CharsetArg := fun U => ⟨utfOf U, Bool.true⟩

theorem utfs_are : CharsetsAre [] utfs := fun _ _ => .inr ⟨rfl, rfl⟩

theorem utfOf_enc (T : CharT) : utfOf T = .utf (encOf T) := by
  cases T <;> try rfl
  rename_i four; cases four <;> rfl

theorem enc_scalar (c : Nat) (h : Utf.Scalar Bool.false c) : enc T utfs c = Utf.encode (encOf T) c := by
  unfold enc utfs ref
  rw [utfOf_enc]
  exact (Utf.encode_char_exact (encOf T) c h).1

theorem dflt_holds (tag : Tag) (c : Cat) : Facets.InForce dflt c tag [] (dflt c) := .inr ⟨rfl, rfl⟩

theorem plain_int_text (t : IntTy) (x : Int) (e : Nat → List Nat) (sep : List Nat) (hs : t.signed = Bool.false → 0 ≤ x) :
    IntPrinter.Spec.formatted e .lower sep [] Bool.false (usedOptions []) .none (t.val x) =
      (if x < 0 then [0x2D] else []) ++ text 10 .lower x.natAbs := by
  have hz : IntPrinter.Spec.zeros [] Bool.false (usedOptions []) (t.val x) = 0 := by
    unfold IntPrinter.Spec.zeros
    have h1 : (usedOptions []).precision = 0 := rfl
    have h2 : (usedOptions []).pad0 = 0 := rfl
    rw [h1, h2]; omega
  have hm : IntPrinter.Spec.missing [] Bool.false (usedOptions []) .none (t.val x) = 0 := by
    unfold IntPrinter.Spec.missing IntPrinter.Spec.Layout.none
    dsimp only
    omega
  unfold IntPrinter.Spec.formatted
  dsimp only
  rw [hz, hm, IntPrinter.groups_none, IntPrinter.grouped_one _ _ _ rfl]
  have hl : IntPrinter.Spec.leader e .lower (usedOptions []) IntPrinter.Spec.Layout.none.fill (t.val x) = if x < 0 then [0x2D] else [] := by
    unfold IntPrinter.Spec.leader
    have h1 : (usedOptions []).base = 10 := rfl
    have h2 : (usedOptions []).sign = .negativeOnly := rfl
    rw [h1, h2]
    have h3 : (t.val x).value = x := rfl
    rw [h3]
    by_cases hx : x < 0
    · simp [hx]
    · simp [hx]
  rw [hl]
  simp [IntPrinter.Spec.times, IntPrinter.Spec.before, IntPrinter.Spec.Layout.none]
  rfl

theorem padded_zero (e : Nat → List Nat) (a : AlignFmt) (t : List Nat) : padded e a 0 t = t := by
  unfold padded
  have hb : ∀ al, IntPrinter.Spec.before al 0 = 0 := fun al => by cases al <;> rfl
  rw [hb]
  simp [IntPrinter.Spec.times]

theorem arranged_plain (e : Nat → List Nat) (neg : Bool) (t : List Nat) (c : Nat) :
    Float.Spec.arranged e .negativeOnly 0 .none neg [] t c = (if neg then [0x2D] else []) ++ t := by
  have hn : ∀ c : Nat, ((0 : Int) - (c : Int)).toNat = 0 := by intro c; omega
  unfold Float.Spec.arranged
  dsimp only
  have h0 : IntPrinter.Spec.Layout.none.columns = 0 := rfl
  have hb : ∀ al, IntPrinter.Spec.before al 0 = 0 := fun al => by cases al <;> rfl
  rw [h0, hn, hn, hb]
  unfold Float.Spec.leader
  cases neg <;> simp [IntPrinter.Spec.times]

theorem plain_denotes (a : PlainArg) (ha : a.Ok T) : ∃ m, Denotes T utfs [] 0 (a.arg T) m ∧ Says T a m.text := by
  cases a with
  | int t x =>
    have ha' : (t.val x).Ok := by
      have : if t.signed then -(2 ^ (8 * t.bytes - 1)) ≤ x ∧ x < 2 ^ (8 * t.bytes - 1) else 0 ≤ x ∧ x < 2 ^ (8 * t.bytes) := ha
      refine ⟨?_, this⟩
      obtain ⟨k, s⟩ := t
      cases k <;> simp [IntTy.val, IntTy.bytes]
    refine ⟨_, plain_int t x ?_ .lower Numpunct.Facet.default (dflt_holds _ .lettercase) (dflt_holds _ (.numpunct 10)), ?_⟩
    · exact ha'
    · have := plain_int_text t x (enc T utfs) (enc T utfs Numpunct.Facet.default.thousandsSep) ?_
      · show Says T _ (IntPrinter.Spec.formatted _ _ _ _ _ _ _ _)
        rw [this]; exact .int
      · intro h
        have : if t.signed then -(2 ^ (8 * t.bytes - 1)) ≤ x ∧ x < 2 ^ (8 * t.bytes - 1) else 0 ≤ x ∧ x < 2 ^ (8 * t.bytes) := ha
        rw [h] at this; exact this.1
  | float F bits =>
    have hp : precision (floatOptions []).precision = none := rfl
    refine ⟨_, .float .none .lower Numpunct.Facet.default Numpunct.Facet.default [] Bool.false
      ⟨rfl, rfl, by decide, Width.round_correct 0 (by decide)⟩ (dflt_holds _ .lettercase) (fun _ => dflt_holds _ .lettercase)
      (dflt_holds _ (.numpunct 10)) (dflt_holds _ (.numpunct 16)) ⟨by decide, by decide, fun e => (by cases e), ?_⟩, ?_⟩
    · refine .inr ⟨⟨.inl rfl, by decide⟩, ?_⟩
      rw [if_neg (by decide), hp]
      trivial
    · show Says T _ (floatText _ _ _ _ _ (usedGroups _ _ _ _ _).1 (usedGroups _ _ _ _ _).2 _ _ _ _)
      have hg : ∀ C : Print.Charset (Maker Nat), Float.usedGroups C Numpunct.Facet.default (floatOptions []) [] Bool.false = ([], Bool.false) := by
        intro C; unfold Float.usedGroups; split <;> rfl
      rw [hg]
      unfold floatText
      split
      next h =>
        have hf : ¬ Finite F bits := fun hf => hf h
        unfold Float.specialText
        have : Float.specialLayout (floatOptions []) .none = .none := by rfl
        rw [this]
        have h2 : (floatOptions []).sign = .negativeOnly := rfl
        rw [h2, arranged_plain]
        by_cases hm : manBits F bits = 0
        · rw [show decide (manBits F bits ≠ 0) = Bool.false by simp [hm]]
          exact .infinity hf hm
        · rw [show decide (manBits F bits ≠ 0) = Bool.true by simp [hm]]
          exact .nan hf hm
      next h =>
        rw [if_neg (by decide)]
        have hd := Dragonbox.decode_reads (T := F) (bits := bits) h
        have hr := Float.readNumber_number .lower Bool.false (signBit F bits) Bool.false 0
          (Float.Spec.shape [] Bool.false .general none Bool.false (Float.decode Dragonbox.toDecimal F bits).m10 (Float.decode Dragonbox.toDecimal F bits).e10)
        rw [Float.shape_value] at hr
        refine .float h ?_ hd
        unfold Float.finite
        dsimp only
        have h2 : (floatOptions []).sign = .negativeOnly := rfl
        have h3 : (floatOptions []).pad0 = 0 := rfl
        have h4 : (floatOptions []).showpoint = Bool.false := rfl
        have h5 : specNotation (floatOptions []).nota = .general := rfl
        rw [h2, h3, h4, h5, hp, arranged_plain, Float.number_sep, enc_scalar _ (by decide)]
        have h6 : Utf.encode (encOf T) (Float.usedPoint Numpunct.Facet.default (floatOptions [])) = [0x2E] := by
          cases encOf T <;> rfl
        rw [h6]
        exact hr
  | bool x =>
    refine ⟨_, .rawBool .lower (dflt_holds _ .lettercase), ?_⟩
    cases x
    · exact .false
    · exact .true
  | ptr address =>
    refine ⟨_, .ptr .none .lower 0 ⟨rfl, rfl, by decide, Width.round_correct 0 (by decide)⟩ (dflt_holds _ .lettercase) ha ?_, ?_⟩
    · simp [IntPrinter.Spec.Layout.none]; 
    · show Says T _ (_ ++ pointerText .lower address ++ _)
      simp [IntPrinter.Spec.times, IntPrinter.Spec.before]
      exact .ptr
  | str src =>
    obtain ⟨h1, h2⟩ := ha
    refine ⟨_, .str .std src 0 (dflt_holds _ .widthCalc) ⟨?_, h1, ?_, fun e => (by cases e), fun _ => rfl, fun p e => (by cases e), by decide, .inl rfl, rfl, fun e => (by cases e), ?_⟩ ?_, ?_⟩
    · show decide (T = T) = Bool.true
      simp
    · show (utfOf T).unitSize = T.size
      cases T <;> try rfl
      rename_i four; cases four <;> rfl
    · exact h2
    · unfold Print.FillCount
      rw [if_neg]
      have : (0 : Int) ≤ strWidth utfs Print.Calc.std [] T src := by unfold strWidth; omega
      have h0 : (stringAlign []).width = 0 := rfl
      omega
    · have : padded (enc T utfs) (stringAlign []) 0 (strText T utfs [] T src) = src := by
        rw [padded_zero]; rfl
      show Says T _ (padded _ _ _ _)
      rw [this]; exact .str
  | chr u =>
    refine ⟨_, .rawChr .std (dflt_holds _ .widthCalc) (.inl rfl) ha, ?_⟩
    show Says T _ (padded _ _ _ _)
    have : padded (enc T utfs) AlignFmt.dflt 0 (List.replicate 1 (charUnits (enc T utfs) T T u)).flatten = [u] := by
      rw [padded_zero]; simp [charUnits]
    rw [this]; exact .chr
  | chr32 c =>
    have hc : Utf.Scalar Bool.false c := ha
    refine ⟨_, .rawChr .std (dflt_holds _ .widthCalc) (.inr rfl) ?_, ?_⟩
    · intro u hu
      simp at hu; subst hu
      have := hc.1
      show u < 4294967296
      omega
    · show Says T _ (padded _ _ _ _)
      have : padded (enc T utfs) AlignFmt.dflt 0 (List.replicate 1 (charUnits (enc T utfs) .char32 T c)).flatten = Utf.encode (encOf T) c := by
        rw [padded_zero]; simp only [charUnits]
        by_cases hT : CharT.char32 = T
        · subst hT; simp [encOf, Utf.encode]
        · simp [hT, enc_scalar c hc]
      rw [this]; exact .chr32

theorem plain_denotes_all (l : List PlainArg) (hl : ∀ a ∈ l, a.Ok T) :
    ∃ ms, DenoteAll T utfs [] 0 (l.map (·.arg T)) ms ∧ List.Forall₂ (Says T) l (ms.map (·.text)) := by
  induction l with
  | nil => exact ⟨[], .nil, .nil⟩
  | cons a l ih =>
    obtain ⟨m, h1, h2⟩ := plain_denotes a (hl a (by simp))
    obtain ⟨ms, h3, h4⟩ := ih fun b hb => hl b (by simp [hb])
    exact ⟨m :: ms, DenoteAll.cons h1 h3, .cons h2 h4⟩

theorem total_text (ms : List Meaning) : (total ms).text = (ms.map (·.text)).flatten := by
  induction ms with
  | nil => rfl
  | cons m ms ih => simp [total, ih]

theorem plain_means (eol : Bool) (l : List PlainArg) (hl : ∀ a ∈ l, a.Ok T) :
    ∃ ms, (plainCall T eol l).Means T 0 ms ∧ SaysAll T eol l ((plainCall T eol l).text ms) := by
  obtain ⟨ms, h1, h2⟩ := plain_denotes_all l hl
  refine ⟨ms, ⟨trivial, utfs, utfs_are, h1⟩, _, h2, ?_⟩
  unfold Call.text
  rw [total_text]; rfl

/-! ## The theorems -/

/-- C80: a call without facets and formats never goes wrong and prints what its arguments say, on any destination that keeps the
contract: for every list of arguments, whatever the types and the values. -/
theorem plain_call_exact (L : Lawful D Rep) (eol : Bool) (l : List PlainArg) (hl : ∀ a ∈ l, a.Ok T) :
    ∃ its t, (plainCall T eol l).items D T sg = some its ∧ SaysAll T eol l t ∧ Prints τ D Rep (printPlain D eol its) t := by
  obtain ⟨ms, hm, hs⟩ := plain_means eol l hl
  obtain ⟨its, hi, ha⟩ := call_exact_partial (sg := sg) L hm
  exact ⟨its, _, hi, hs, Print.printPlain_prints L eol ha⟩

/-- C80: strf::to_string(args...) -/
theorem plain_to_string (eol : Bool) (l : List PlainArg) (hl : ∀ a ∈ l, a.Ok T) (junk : List Nat) (hj : junk.length = 64) :
    ∃ its s t, (plainCall T eol l).items Maker.dest T sg = some its ∧ printPlain Maker.dest eol its (Maker.init junk) = some s ∧
      (Maker.finishE Bool.true s).2 = some t ∧ SaysAll T eol l t := by
  obtain ⟨ms, hm, hs⟩ := plain_means eol l hl
  obtain ⟨its, s, hi, e, r⟩ := call_to_string_partial (sg := sg) hm junk hj
  exact ⟨its, s, _, hi, e, r, hs⟩

/-- C80: strf::append(str)(args...) -/
theorem plain_append (eol : Bool) (l : List PlainArg) (hl : ∀ a ∈ l, a.Ok T) (start junk : List Nat) (hj : junk.length = 64) :
    ∃ its s t, (plainCall T eol l).items Dest.Appender.dest T sg = some its ∧
      printPlain Dest.Appender.dest eol its (Dest.Appender.init start junk) = some s ∧
      (Dest.Appender.destroyE Bool.true (Dest.Appender.finishE Bool.true s).1).str = start ++ t ∧ SaysAll T eol l t := by
  obtain ⟨ms, hm, hs⟩ := plain_means eol l hl
  obtain ⟨its, s, hi, e, r⟩ := call_append_partial (sg := sg) hm start junk hj
  exact ⟨its, s, _, hi, e, r, hs⟩

/-- C80: strf::to(FILE*)(args...): a file that does not fail receives what the arguments say. -/
theorem plain_to_cfile (eol : Bool) (l : List PlainArg) (hl : ∀ a ∈ l, a.Ok T) (acc : World Nat) (junk : List Nat)
    (hj : 64 ≤ junk.length) :
    ∃ its s t, (plainCall T eol l).items (Writer.cfile acc) T sg = some its ∧
      printPlain (Writer.cfile acc) eol its (Writer.init junk) = some s ∧ SaysAll T eol l t ∧
      (Writer.finish acc s).1.file <+: t ∧ ((Writer.finish acc s).2.2 = Bool.true ↔ (Writer.finish acc s).1.file = t) := by
  obtain ⟨ms, hm, hs⟩ := plain_means eol l hl
  obtain ⟨its, s, hi, e, r, _, r'⟩ := call_to_cfile_partial (sg := sg) hm acc junk hj
  exact ⟨its, s, _, hi, e, hs, r, r'⟩

/-- C80: the characters of an array are never more than it has, whatever the arguments say. -/
theorem plain_to_array (eol : Bool) (l : List PlainArg) (hl : ∀ a ∈ l, a.Ok T) (arr garb : List Nat) (hN : 1 ≤ arr.length)
    (hg : garb.length = 64) :
    ∃ its s t, (plainCall T eol l).items Dest.Arr.dest T sg = some its ∧
      printPlain Dest.Arr.dest eol its (Dest.Arr.initCstr arr garb) = some s ∧ SaysAll T eol l t ∧ s.arr.length = arr.length ∧
      (t.length + 64 < arr.length → ∃ s', Dest.Arr.finishCstr 0 s = some (s', .user t.length, Bool.false) ∧
        s'.arr.take (t.length + 1) = t ++ [0]) := by
  obtain ⟨ms, hm, hs⟩ := plain_means eol l hl
  obtain ⟨its, s, hi, e, r1, r2, r3, _⟩ := call_to_cstr_partial (sg := sg) hm arr garb hN hg
  exact ⟨its, s, _, hi, e, hs, r1, fun h => r3 (r2 h)⟩

/-- C80: a call with one finite floating-point number prints a text from which the number is read back. -/
theorem plain_float_round_trip (F : FloatT) (bits : Nat) (hf : Finite F bits) (junk : List Nat) (hj : junk.length = 64) :
    ∃ its s t q, (plainCall T Bool.false [.float F bits]).items Maker.dest T sg = some its ∧
      printPlain Maker.dest Bool.false its (Maker.init junk) = some s ∧ (Maker.finishE Bool.true s).2 = some t ∧
      readNumber t = some (signBit F bits, q) ∧ ReadsAs F.mSize F.eSize (expBits F bits) (manBits F bits) q := by
  obtain ⟨its, s, t, h1, h2, h3, texts, h4, rfl⟩ :=
    plain_to_string (T := T) (sg := sg) Bool.false [.float F bits] (by intro a ha; simp at ha; subst ha; trivial) junk hj
  cases h4 with
  | cons h4 h5 =>
    cases h5
    cases h4 with
    | float _ h6 h7 => exact ⟨its, s, _, _, h1, h2, h3, by simpa using h6, h7⟩
    | infinity h _ => exact absurd hf h
    | nan h _ => exact absurd hf h

/-! ## Examples -/

def somePlain : List PlainArg :=
  [.str (txt "x="), .int ⟨.int, Bool.true⟩ (-128), .chr 0x20, .float .double 0x3FF8000000000000, .bool Bool.true, .ptr 0xCAFE,
    .chr32 0x20AC, .float .float 0xFF800000]

example : ∀ a ∈ somePlain, a.Ok .char16 := by
  intro a ha
  simp only [somePlain, List.mem_cons, List.not_mem_nil, or_false] at ha
  rcases ha with rfl | rfl | rfl | rfl | rfl | rfl | rfl | rfl <;>
    first | trivial | (unfold PlainArg.Ok; dsimp only; decide)

/-- and this is what it prints -/
example : Says .char16 (.int ⟨.int, Bool.true⟩ (-128)) (txt "-128") := by
  have : txt "-128" = (if (-128 : Int) < 0 then [0x2D] else []) ++ text 10 .lower (-128 : Int).natAbs := by decide
  rw [this]; exact .int
example : Says .char16 (.chr32 0x20AC) [0x20AC] := by
  have : [0x20AC] = Utf.encode (encOf .char16) 0x20AC := by decide
  rw [this]; exact .chr32
example : Says .char (.chr32 0x20AC) [0xE2, 0x82, 0xAC] := by
  have : [0xE2, 0x82, 0xAC] = Utf.encode (encOf .char) 0x20AC := by decide
  rw [this]; exact .chr32

end Strf.Program

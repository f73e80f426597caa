import Verif.Direct.CallProps
/-!
# C91: where values of types with `print` only cannot be printed; cases
-/
namespace Strf.Direct
open Strf.Format
open Strf.Program (CharsetsAre constrainable allConstrainable theCharset)
open Strf.Print (Item Meaning printPlain printTr txt)
open Strf.Dest (Dest Lawful Prints Maker)
open Strf.IntPrinter (AlignFmt)
open Strf.Override

variable {ω υ π ρ σ : Type} {D : Dest Nat σ} {T : CharT} {sg : CharT → Bool} {cl : PClasses ω υ π ρ}

theorem makeEach_none {α β : Type} {f : α → Option β} {a : α} (ha : f a = none) : ∀ {l : List α}, a ∈ l → makeEach f l = none := by
  intro l
  induction l with
  | nil => intro h; cases h
  | cons b l ih =>
    intro h
    unfold makeEach
    rcases List.mem_cons.mp h with rfl | h
    · rw [ha]; rfl
    · rw [ih h]; cases f b <;> rfl

/-- The type of the value is not overridable, and its definition has no `make_printer` (for `T`). -/
def PrintOnly (cl : PClasses ω υ π ρ) (T : CharT) (u : υ) : Prop := cl.overridable u = false ∧ ∀ fp, cl.define u T fp = none

theorem not_overridable (fp : UPack ω) (tag : UTag) : theOverrider fp false tag = none := by
  simp [theOverrider]

theorem printOnly_none {u : υ} (h : PrintOnly cl T u) {md : Mode} (hm : md = .something ∨ md = .nothing .printer) (n : Nat) (fp : UPack ω) :
    gen D T sg cl n md fp (.user u) = none := by
  cases n with
  | zero => rfl
  | succ n =>
    rw [gen]
    dsimp only
    rw [h.1, not_overridable]
    dsimp only
    rw [h.2]
    rcases hm with rfl | rfl <;> rfl

/-- C91: A value of such a type cannot be printed (no depth of instantiations suffices) with reserve_calc; in an aligned join; -/
theorem print_only_measured {u : υ} (h : PrintOnly cl T u) (n : Nat) (md : Mode) (fp : UPack ω) (args : List (UArg ω υ)) (hu : .user u ∈ args) :
    makeEach (gen D T sg cl n .something fp) args = none ∧ ∀ al, gen D T sg cl n md fp (.alignedJoin al args) = none := by
  refine ⟨makeEach_none (printOnly_none h (.inl rfl) n fp) hu, fun al => ?_⟩
  cases n with
  | zero => rfl
  | succ n =>
    rw [gen, makeEach_none (printOnly_none h (.inl rfl) n fp) hu]
    rfl

theorem Mode.inside_needs (md : Mode) : md.inside = .something ∨ md.inside = .nothing .printer := by
  cases md
  · exact .inl rfl
  · exact .inr rfl

/-- C91: nor as an argument of `strf::with(…)(…)` or of `strf::tr(…)`, with whatever premeasurements. -/
theorem print_only_inner {u : υ} (h : PrintOnly cl T u) (n : Nat) (md : Mode) (fp : UPack ω) (args : List (UArg ω υ)) (hu : .user u ∈ args) :
    (∀ fs, gen D T sg cl n md fp (.inner fs args) = none) ∧ ∀ str, gen D T sg cl n md fp (.tr str args) = none := by
  refine ⟨fun fs => ?_, fun str => ?_⟩
  · cases n with
    | zero => rfl
    | succ n =>
      rw [gen, makeEach_none (printOnly_none h md.inside_needs n _) hu]
      split <;> rfl
  · cases n with
    | zero => rfl
    | succ n =>
      rw [gen, makeEach_none (printOnly_none h md.inside_needs n fp) hu]
      rfl

/-! ### cases: tests/add_and_override_printable_types.cpp -/

/-- tests/add_and_override_printable_types.cpp 26–34 stringify -/
def stringify : Nat → List Nat
  | 0 => [0x61, 0x61]
  | 1 => [0x62, 0x62]
  | 2 => [0x63, 0x63]
  | _ => [0xFFFD]

/-- 131, 150: `unsafe_transcode(stringify(e))` -/
def theText (e : Nat) (as : List AlignCall) : UArg Unit (Nat × Option (List AlignCall)) := .leaf (.str .char16 (.unchecked none :: as.map .align) (stringify e))

/-- 38–67 printable_def<mytype>, 125–159 mytype_overrider_impl. A value: which of the three, and with what format functions if any. Nothing is done to the destination otherwise. -/
def myPrint : PClasses Unit (Nat × Option (List AlignCall)) Empty Empty where
  type _ := 0
  overridable _ := true
  define _ _ _ := none
  override _ _ _ _ := none
  overrideUser _ _ _ _ := none
  printer _ p := nomatch p
  printDef x _ fp := some (.call fp [theText x.1 (x.2.getD [])])
  printOver _ _ _ _ := none
  printOverUser _ T fp x := some (.call fp (match x.2.bind alignChain with
    | none => [.leaf (.rawChr T 0x5B), theText x.1 [], .leaf (.rawChr T 0x5D)]
    | some a => [.alignedJoin a [.leaf (.rawChr T 0x5B), theText x.1 [], .leaf (.rawChr T 0x5D)]]))
  own _ r := nomatch r

theorem myPrint_ok : ClassesOk true myPrint (fun _ _ _ => False) (fun _ _ => False) := ⟨nofun, nofun⟩

/-- what `strf::to_string…(args...)` returns; the depth of instantiations is limited to 900 -/
def pPrinted (T : CharT) (cl : PClasses ω υ π ρ) (c : UCall ω υ) : Option (List Nat) :=
  (callItems Maker.dest T (fun _ => false) cl 900 (.nothing .direct) c).bind fun its =>
    (printPlain Maker.dest c.eol its (Maker.init (List.replicate 64 0))).bind fun s => (Maker.finishE true s).2

/-- what `strf::to_string….tr(str, args...)` returns -/
def pTr (T : CharT) (cl : PClasses ω υ π ρ) (c : UCall ω υ) (str : List Nat) : Option (List Nat) :=
  (callItems Maker.dest T (fun _ => false) cl 900 (.nothing .tr) c).bind fun its =>
    (printTr Maker.dest ((theCharset (stdAll (callPack c)) .void T).name.cs.repl Maker.dest) c.eol str its (Maker.init (List.replicate 64 0))).bind fun s =>
      (Maker.finishE true s.1).2

/-- a string of the type of the destination -/
abbrev lit (s : List Nat) : UArg Unit (Nat × Option (List AlignCall)) := .leaf (.str .char8 [] s)
/-- `strf::center(e, w, fill)` -/
abbrev centered (e w fill : Nat) : UArg Unit (Nat × Option (List AlignCall)) := .user (e, some [.set fill (w * 65536) .center])
/-- mytype_overrider: `strf::constrain<is_mytype>(mytype_overrider_impl())` -/
def overridden : UPack Unit := [.constrained (fun t => t = .user 0) (.facet (.overrider (.user 0)) (.overrider (.user 0) ()))]

example : pPrinted .char8 myPrint ⟨[], [], [.user (1, none)], false⟩ = some (txt "bb") := by decide +kernel
example : pPrinted .char8 myPrint ⟨[], [], [.user (1, some [])], false⟩ = some (txt "bb") := by decide +kernel
example : pPrinted .char8 myPrint ⟨[], [], [centered 0 8 0x2E], false⟩ = some (txt "...aa...") := by decide +kernel
example : pPrinted .char8 myPrint ⟨[], [], [.join [lit (txt "--"), .user (1, none), lit (txt "--")]], false⟩ = some (txt "--bb--") := by decide +kernel
example : pPrinted .char8 myPrint ⟨[], [], [.join [lit (txt "=="), centered 2 8 0x2E, lit (txt "==")]], false⟩ = some (txt "==...cc...==") := by decide +kernel
example : pPrinted .char8 myPrint ⟨[], [], [.range [.user (0, none), .user (1, none), .user (2, none)]], false⟩ = some (txt "aabbcc") := by decide +kernel
example : pPrinted .char8 myPrint ⟨[], [], [.range [.user (0, some [.right (4 * 65536)]), .user (1, some [.right (4 * 65536)])]], false⟩ = some (txt "  aa  bb") := by decide +kernel
example : pPrinted .char8 myPrint ⟨[], [], [.separatedRange false (txt "/") [.user (0, none), .user (1, none), .user (2, none)]], false⟩ = some (txt "aa/bb/cc") := by decide +kernel
example : pTr .char8 myPrint ⟨[], [], [.user (0, none)], false⟩ (txt "::{0}:{0}:") = some (txt "::aa:aa:") := by decide +kernel
example : pTr .char8 myPrint ⟨[], [], [.join [lit (txt "-"), centered 0 6 0x5F, lit (txt "-")]], false⟩ (txt "::{0}:{0}:") = some (txt "::-__aa__-:-__aa__-:") := by decide +kernel
example : pPrinted .char8 myPrint ⟨[overridden], [], [.user (1, none)], false⟩ = some (txt "[bb]") := by decide +kernel
example : pPrinted .char8 myPrint ⟨[overridden], [], [.user (1, some [])], false⟩ = some (txt "[bb]") := by decide +kernel
example : pPrinted .char8 myPrint ⟨[overridden], [], [centered 0 8 0x2E], false⟩ = some (txt "..[aa]..") := by decide +kernel
example : pPrinted .char8 myPrint ⟨[overridden], [], [.separatedRange false (txt "/") [.user (0, none), .user (1, none)]], false⟩ = some (txt "[aa]/[bb]") := by decide +kernel
example : pTr .char8 myPrint ⟨[overridden], [], [.join [lit (txt "-"), centered 0 8 0x5F, lit (txt "-")]], false⟩ (txt "::{0}:{0}:") = some (txt "::-__[aa]__-:-__[aa]__-:") := by
  decide +kernel

/-- the hypotheses of `print_only_measured`, `print_only_inner`: mytype, if it were not overridable -/
example : PrintOnly { myPrint with overridable := fun _ => false } .char8 (1, none) := ⟨rfl, fun _ => rfl⟩

/-- `to_u8string.with(mytype_overrider).line(join(u8"--", mytype::bb), separated_range({center(mytype::aa, 8, '.'), mytype::cc}, u8"/"))`: the theorems apply to it. -/
def aPCall : UCall Unit (Nat × Option (List AlignCall)) where
  withs := [overridden]
  facets := []
  args := [.join [lit (txt "--"), .user (1, none)], .separatedRange false (txt "/") [centered 0 8 0x2E, .user (2, none)]]
  eol := true

theorem theText_denotes {fp : UPack Unit} (hw : Program.Holds (stdAll fp) (.string .char16) (.widthCalc .std)) (e : Fin 3) (B : Int) :
    Program.Denotes .char8 (fun U => ⟨Program.utfOf U, true⟩) (stdAll fp) B (.str .char16 [.unchecked none] (stringify e))
      (stringMeaning (Program.enc .char8 fun U => ⟨Program.utfOf U, true⟩) (stringAlign [.unchecked none]) (precisionOf [.unchecked none]).isSome 0
        (Program.strText .char8 (fun U => ⟨Program.utfOf U, true⟩) [.unchecked none] .char16 (stringify e))
        (Program.strWidth (fun U => ⟨Program.utfOf U, true⟩) .std [.unchecked none] .char16 (stringify e))) := by
  have hwf : Print.Cs.WellFormed (Program.utfOf .char16).cs (stringify e) := ⟨stringify e, by revert e; decide, by revert e; decide⟩
  exact .str .std (stringify e) 0 hw
    ⟨rfl, by clear hwf; revert e; decide, by decide, fun e => (by cases e), fun _ => rfl, fun p e => (by cases e), by decide, .inr (.inr (.inr (.inl rfl))), rfl, fun _ => hwf,
      by clear hwf; revert e; decide +kernel⟩
    (by clear hwf; revert e; decide +kernel)

theorem aPCall_says : ∃ ts, CallSays .char8 myPrint (fun _ _ _ => False) (fun _ _ => False) aPCall ts ∧ said aPCall ts = txt "--[bb]..[aa]../[cc]\n" := by
  have hw : ∀ (fp : UPack Unit), (∀ tag U, Facets.applicable (Program.Cat.charset U) tag (Facets.writtenAll (stdAll fp)) = []) →
      CharsetsAre (stdAll fp) (fun U => ⟨Program.utfOf U, true⟩) := fun fp h tag U => .inr ⟨h tag U, rfl⟩
  have ho : Overrides aPCall.pack (.user 0) () := .inl ⟨[], rfl⟩
  have ht : UAllTyped aPCall.pack := by
    simp [UAllTyped, UTyped, aPCall, UCall.pack, overridden, UFacet.cat, std, constrainable, allConstrainable]
  have plain : ∀ e : Fin 3, Says .char8 myPrint (fun _ _ _ => False) (fun _ _ => False) .direct (fun U => ⟨Program.utfOf U, true⟩) aPCall.pack (.user (e.val, none)) _ :=
    fun e => .userOverridden () rfl ho (.printCall .direct ht (hw _ fun _ _ => rfl)
      (.cons (.leaf 0 (.inl (by simp [Leaf.Overridable])) (.rawChr .std (.inr ⟨rfl, rfl⟩) (.inl rfl) (by decide)))
      (.cons (.leaf 0 (.inl (by simp [Leaf.Overridable])) (theText_denotes (.inr ⟨rfl, rfl⟩) e 0))
      (.cons (.leaf 0 (.inl (by simp [Leaf.Overridable])) (.rawChr .std (.inr ⟨rfl, rfl⟩) (.inl rfl) (by decide))) .nil))))
  have all : ∃ ts, SayAll .char8 myPrint (fun _ _ _ => False) (fun _ _ => False) .direct (fun U => ⟨Program.utfOf U, true⟩) aPCall.pack aPCall.args ts := by
    refine ⟨_, .cons (.join (.cons (.leaf 0 (.inl (by simp [Leaf.Overridable])) (.str .std (txt "--") 0 (.inr ⟨rfl, rfl⟩) 
        ⟨rfl, by decide, by decide, fun e => (by cases e), fun _ => rfl, fun p e => (by cases e), by decide, .inl rfl, rfl, fun e => (by cases e), by decide⟩ (by decide +kernel)))
        (.cons (plain 1) .nil)))
      (.cons (.separatedRange (.cons (.userOverridden () rfl ho (.printCall .direct ht (hw _ fun _ _ => rfl) (.cons
        (.alignedJoin 4 (8 * 65536) (by decide) (by decide) (by decide)
          (.cons (.leaf (.inl (by simp [Leaf.Overridable])) (.rawChr .std (.inr ⟨rfl, rfl⟩) (.inl rfl) (by decide)))
          (.cons (.leaf (.inl (by simp [Leaf.Overridable])) (theText_denotes (.inr ⟨rfl, rfl⟩) 0 _))
          (.cons (.leaf (.inl (by simp [Leaf.Overridable])) (.rawChr .std (.inr ⟨rfl, rfl⟩) (.inl rfl) (by decide))) .nil)))
          (by decide +kernel) (by decide +kernel) (by decide +kernel)) .nil))) (.cons (plain 2) .nil))) .nil)⟩
  obtain ⟨ts, hs⟩ := all
  have hM : CallSays .char8 myPrint (fun _ _ _ => False) (fun _ _ => False) aPCall ts := ⟨ht, _, hw _ fun _ _ => rfl, hs⟩
  refine ⟨ts, hM, ?_⟩
  obtain ⟨n, its, s, hi, e, r⟩ := says_to_string_partial (sg := fun _ => false) myPrint_ok hM (List.replicate 64 0) (by simp)
  have hd : pPrinted .char8 myPrint aPCall = some (txt "--[bb]..[aa]../[cc]\n") := by decide +kernel
  rw [pPrinted] at hd
  obtain ⟨its', h1, h2⟩ := Option.bind_eq_some_iff.mp hd
  have h3 := genEach_le (Nat.le_max_right n 900) h1
  have := (hi (max n 900) (Nat.le_max_left _ _)).symm.trans h3
  cases this
  rw [e, Option.bind_some, r] at h2
  exact Option.some.inj h2

/-- C91 fails where nothing is measured: docs/howto_add_printable_types.adoc 663–677 says that with `print` in place of `make_printer` a type cannot be used in aligned
joins and with reserve_calc; `strf::to_string(x)` and `strf::to_string(strf::join(x))` work, but `strf::to_string(strf::with()(x))` and
`strf::to_string(strf::tr(u8"{}", x))` do not compile either. -/
theorem unmeasured_wrong :
    ∃ (cl : PClasses Unit (Nat × Option (List AlignCall)) Empty Empty) (u : Nat × Option (List AlignCall)), ClassesOk true cl (fun _ _ _ => False) (fun _ _ => False) ∧
      pPrinted .char8 cl ⟨[], [], [.user u], false⟩ = some (txt "bb") ∧ pPrinted .char8 cl ⟨[], [], [.join [.user u]], false⟩ = some (txt "bb") ∧
      (∀ n, callItems Maker.dest .char8 (fun _ => false) cl n (.nothing .direct) ⟨[], [], [.inner [] [.user u]], false⟩ = none) ∧
      ∀ n, callItems Maker.dest .char8 (fun _ => false) cl n (.nothing .direct) ⟨[], [], [.tr (txt "{}") [.user u]], false⟩ = none := by
  have h : PrintOnly { myPrint with overridable := fun _ => false } .char8 (1, none) := ⟨rfl, fun _ => rfl⟩
  refine ⟨{ myPrint with overridable := fun _ => false }, (1, none), ⟨nofun, nofun⟩, by decide +kernel, by decide +kernel, fun n => ?_, fun n => ?_⟩
  · exact makeEach_none ((print_only_inner h n _ _ _ (List.mem_singleton.mpr rfl)).1 _) (List.mem_singleton.mpr rfl)
  · exact makeEach_none ((print_only_inner h n _ _ _ (List.mem_singleton.mpr rfl)).2 _) (List.mem_singleton.mpr rfl)

end Strf.Direct

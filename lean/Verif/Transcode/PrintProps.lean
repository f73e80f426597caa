import Verif.Transcode.CallProps
/-! # C75: the functions used for printing strings are those that find_transcoder gives -/
namespace Strf.Transcode
open Strf.Format (CsName CharT CharsetArg id_eq_iff)
open Strf.Print (Content How)
open Strf.Dest (Dest)

variable {σ : Type}

/-- string.hpp 822–935 transcode_printer: the functions of the transcoder found, or else those of to_u32 and from_u32 -/
def printingContent (D : Dest Nat σ) (S T : CharT) (signed : Bool) (s d : CharsetArg) : Option (Content σ) :=
  (find S T s d).map fun
    | some t => .direct D (t.func ⟨false, false, false⟩) (t.size signed ⟨false, false, false⟩)
    | none => .pivot D 16 ((toU32 s.name).func ⟨false, false, false⟩) ((fromU32 d.name).unsafeFunc ⟨false, false, false⟩)
        ((fromU32 d.name).unsafeSize ⟨false, false, false⟩)

/-- string.hpp 1085–1180 unsafe_transcode_printer -/
def uncheckedContent (D : Dest Nat σ) (S T : CharT) (s d : CharsetArg) : Option (Content σ) :=
  (find S T s d).map fun
    | some t => .direct D (t.unsafeFunc ⟨false, false, false⟩) (t.unsafeSize ⟨false, false, false⟩)
    | none => .pivot D 32 ((toU32 s.name).unsafeFunc ⟨false, false, false⟩) ((fromU32 d.name).unsafeFunc ⟨false, false, false⟩)
        ((fromU32 d.name).unsafeSize ⟨false, false, false⟩)

/-- C75: the functions with which strings are printed (C38, C69) are those of the transcoder found. -/
theorem printing_content (D : Dest Nat σ) (S T : CharT) (signed : Bool) (s d : CharsetArg) (hs : s.name.unitSize = S.size)
    (hd : d.name.unitSize = T.size) :
    printingContent D S T signed s d =
      some (How.transcode.content D signed (decide (s.name.id = d.name.id)) s.name.cs d.name.cs) ∧
    uncheckedContent D S T s d =
      some (How.unchecked.content D signed (decide (s.name.id = d.name.id)) s.name.cs d.name.cs) := by
  unfold printingContent uncheckedContent
  rw [find_exact S T s d hs hd]
  have hid : s.name.id = d.name.id ↔ s.name = d.name := id_eq_iff
  generalize s.name = a at *
  generalize d.name = b at *
  have e : decide (a.id = b.id) = decide (a = b) := decide_eq_decide.mpr hid
  rw [e]
  clear e hid
  rcases a with (_ | _ | _) | i <;> rcases b with (_ | _ | _) | j <;>
    first
    | exact ⟨rfl, rfl⟩
    | (by_cases h : i = j
       · subst h
         simp [hasSpec, How.content, CsName.cs]
         exact ⟨rfl, rfl⟩
       · simp [hasSpec, How.content, CsName.cs, h]
         exact ⟨rfl, rfl⟩)

end Strf.Transcode

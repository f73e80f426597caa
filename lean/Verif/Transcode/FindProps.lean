import Verif.Transcode.Model
import Verif.Format.StringProps
import Mathlib.Tactic.SplitIfs
/-! # C75: which transcoder is used between two charsets -/
namespace Strf.Transcode
open Strf.Format (CsName CharT CharsetArg id_eq_iff)

/-- C75: for any two charsets of strf, each static or dynamic, over any character types of the right size, find_transcoder
compiles, and finds the transcoder of these two charsets if both are UTFs, or they are the same charset, or one is UTF-32 and the
other a single-byte charset; otherwise it finds none. So the answer does not depend on whether the charsets are known at
compile time, nor on which character types of the same size are used. -/
theorem find_exact (S T : CharT) (s d : CharsetArg) (hs : s.name.unitSize = S.size) (hd : d.name.unitSize = T.size) :
    find S T s d = some (if hasSpec s.name d.name then some ⟨s.name, d.name⟩ else none) := by
  obtain ⟨sn, ss⟩ := s
  obtain ⟨dn, ds⟩ := d
  have u (e : Utf.Enc) (i : Fin 25) : ((CsName.utf e).id = (CsName.sbc i).id) = False := by
    rw [id_eq_iff]; simp
  have u' (e : Utf.Enc) (i : Fin 25) : ((CsName.sbc i).id = (CsName.utf e).id) = False := by
    rw [id_eq_iff]; simp
  have v (i j : Fin 25) : ((CsName.sbc i).id = (CsName.sbc j).id) = (i = j) := by
    rw [id_eq_iff]; simp
  have w (e f : Utf.Enc) : ((CsName.utf e).id = (CsName.utf f).id) = (e = f) := by
    rw [id_eq_iff]; simp
  rcases sn with (_ | _ | _) | i <;> rcases dn with (_ | _ | _) | j <;>
    rcases S with _ | _ | _ | _ | (_ | _) <;> rcases T with _ | _ | _ | _ | (_ | _) <;>
    first
    | (exfalso; revert hs; simp [CsName.unitSize, CharT.size]; done)
    | (exfalso; revert hd; simp [CsName.unitSize, CharT.size]; done)
    | (cases ss <;> cases ds <;>
        simp [find, hasSpec, finder2, hasFindTo, hasFindFrom, findTo, findFrom, utfOf, CharT.size, u, u', v, w] <;>
        (by_cases h : i = j
         · subst h; simp
         · have h' : ¬ j = i := fun e => h e.symm
           simp [h, h']))

/-- for example: windows-1252 in `char`, dynamic, to UTF-16 in `wchar_t` or `char16_t`: through UTF-32; to UTF-32 in a four-byte
`wchar_t`: directly -/
example : find .char (.wchar false) ⟨.sbc 18, false⟩ ⟨.utf .utf16, true⟩ = some none ∧
    find .char (.wchar true) ⟨.sbc 18, false⟩ ⟨.utf .utf32, false⟩ = some (some ⟨.sbc 18, .utf .utf32⟩) ∧
    find .char .char8 ⟨.sbc 18, false⟩ ⟨.sbc 18, true⟩ = some (some ⟨.sbc 18, .sbc 18⟩) := by
  refine ⟨find_exact _ _ _ _ rfl rfl, find_exact _ _ _ _ rfl rfl, find_exact _ _ _ _ rfl rfl⟩

end Strf.Transcode

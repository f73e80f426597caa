import Verif.Utf.Model
/-! # What a transcoding call must deliver, in terms of the items of the source -/
namespace Strf.Utf

/-- The notifications for the ill-formed items of a source whose remaining length is `len`. -/
def badNotes (s : Enc) (len : Nat) : List Item → List Note
  | [] => []
  | .ch c :: is => badNotes s (len - (Item.ch c).size s) is
  | .bad n :: is => ⟨len, n⟩ :: badNotes s (len - n) is

/-- `r` is a correct result of transcoding from `s` to `d` a source whose items are `items`, with `room` units
of output space: some of the items are done, their transcoding is what was stored, the source position is just
after them, and the call stopped for the reason it reports. With the stop flag no ill-formed item is passed.
Notified are the ill-formed items done, and also the one at which the call stopped. -/
def Outcome (s d : Enc) (stop : Bool) (room : Nat) (src : List Nat) (items : List Item) (r : TR) : Prop :=
  ∃ done todo, items = done ++ todo ∧
    r.out = render d done ∧ r.rest = src.drop (extent s done) ∧ r.out.length ≤ room ∧
    (stop = true → ∀ i ∈ done, i.isBad = false) ∧
    r.notes = badNotes s src.length (done ++ todo.take 1) ∧
    match r.why with
    | .completed => todo = []
    | .insufficient => ∃ i todo', todo = i :: todo' ∧ ¬ (stop = true ∧ i.isBad = true) ∧
        room < (render d done).length + (encode d i.char).length
    | .invalid => stop = true ∧ ∃ n todo', todo = .bad n :: todo'
    | .unsupported => False

end Strf.Utf

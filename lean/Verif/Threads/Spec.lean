import Verif.Threads.Model
/-!
# One thread alone, and data races

There is no synchronisation between the threads, so that two accesses to the same location by two threads, one of them a store, are a data race
([intro.races] of the C++ standard), and then the behaviour of the whole program is undefined.
-/
namespace Strf.Threads
open Strf.Dest (Arr Loc)
variable {α ι κ : Type}

/-- A thread that makes `n` steps when there are no others. -/
def alone (p : Prog α κ) : Nat → κ → Arr α → Option (κ × Arr α)
  | 0, k, s => some (k, s)
  | n + 1, k, s => ((p k (priv s)).1.run s).bind fun s' => alone p n (p k (priv s)).2 s'

/-- A memory location: an element of the array of one of the threads, or of the buffer that they share. -/
inductive Place (ι : Type)
  | own (i : ι) (k : Nat)
  | shared (k : Nat)
deriving DecidableEq

/-- the place of a location in thread `i` -/
def place (i : ι) : Loc → Option (Place ι)
  | .user k => some (.own i k)
  | .garbage k => some (.shared k)
  | .null => none

/-- the places that thread `i` writes to in its next step -/
def Sys.writes (P : ι → Prog α κ) (y : Sys ι κ α) (i : ι) : List (Place ι) :=
  ((P i (y.ctl i) (y.dst i)).1.writes (y.dst i)).filterMap (place i)

/-- A data race in an execution: two steps of different threads write to the same place. -/
def Race [DecidableEq ι] (P : ι → Prog α κ) (y : Sys ι κ α) (sched : List ι) (at_ : Place ι) : Prop :=
  ∃ a b c i j y1 y2, sched = a ++ i :: b ++ j :: c ∧ i ≠ j ∧ y.run P a = some y1 ∧ y.run P (a ++ i :: b) = some y2 ∧
    at_ ∈ y1.writes P i ∧ at_ ∈ y2.writes P j

/-- Within `n` steps alone, the thread writes to the garbage buffer: there was no room in its array. -/
def Spills (p : Prog α κ) (n : Nat) (k : κ) (s : Arr α) : Prop :=
  ∃ m k' s' g, m < n ∧ alone p m k s = some (k', s') ∧ Loc.garbage g ∈ (p k' (priv s')).1.writes (priv s')

end Strf.Threads

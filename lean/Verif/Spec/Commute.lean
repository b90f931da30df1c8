/-
Collections which show the same although sources without data may be left in the selection of one of them.
-/
import Verif.Spec.FileOrder

namespace KD.Spec

variable {V : Type}

/-- The two collections have the same files, in the same order, the same trains, and for each source in the files the same choice of
keys. (`select_trains` leaves sources in the selection which no remaining file has: nothing shows them.) -/
structure SameReach (a b : DC V) : Prop where
  files : a.files = b.files
  trains : a.trainIds = b.trainIds
  selection : ∀ source, (∃ f ∈ a.files, Holds f source) → SameChoice (a.selection.get? source) (b.selection.get? source)

/-- The call narrows sources and keys, not trains. -/
def NarrowCall.ofSources : NarrowCall → Bool
  | .select _ => true
  | .deselect _ => true
  | .selectTrains _ => false

end KD.Spec

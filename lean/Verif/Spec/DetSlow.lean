/- Detector data without pulses: the entries of one module in the joined array. -/
import Verif.Spec.Data
import Verif.Model.Components

namespace KD.Spec

variable {V : Type}

/-- The values which a module has in the places labelled with train `t`, in order; missing values are left out. -/
def entriesAt (labels : Option (List Nat)) (col : List (Option V)) (t : Nat) : List V :=
  ((labels.getD []).zip col).filterMap (fun x => if x.1 = t then x.2 else none)

/-- Some file of the detector's data has entries of this source and key for a selected train `t`. -/
def HasEntries (d : Det V) (source key : Str) (t : Nat) : Prop :=
  t ∈ d.data.trainIds ∧ ∃ f ∈ d.data.files, Holds f source ∧ t ∈ f.trainIds ∧ fileEntries f true source key t ≠ []

end KD.Spec

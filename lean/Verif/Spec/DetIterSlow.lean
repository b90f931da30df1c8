/- Detector data without pulses, when iterating over trains: the shape of the data of one module. -/
import Verif.Spec.Data

namespace KD.Spec

variable {V : Type}

/-- The shape of the data of one module in one train: that of an entry, with one more dimension if there are several. -/
def sizesOf (rowShape : List Nat) : List V → List Nat
  | [_] => rowShape
  | l => l.length :: rowShape

/-- The data which the files have for the train has this shape. -/
def HasSizes (c : DC V) (source key : Str) (t : Nat) (sizes : List Nat) : Prop :=
  ∃ f ∈ c.files, Holds f source ∧ t ∈ f.trainIds ∧ ∃ ds, f.dataset (ch! "INSTRUMENT") source key = .ok ds ∧
    sizes = sizesOf ds.rowShape (fileEntries f true source key t)

/-- The data which the files have for the train, a single entry or several. -/
def ShowsEntry (c : DC V) (source key : Str) (t : Nat) (e : Entry V) : Prop :=
  ∃ f ∈ c.files, Holds f source ∧ t ∈ f.trainIds ∧ shown (fileEntries f true source key t) = some e

end KD.Spec

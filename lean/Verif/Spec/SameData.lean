/-
Collections which hold the same data, however it is spread over files.
-/
import Verif.Spec.Write

namespace KD.Spec

variable {V : Type}

/-- The collection holds the entries `es` for the field in the train: they are in the file which has the source and the train, or there
is no such file, and no entries. -/
def HoldsEntries (c : DC V) (instr : Bool) (source key : Str) (t : Nat) (es : List V) : Prop :=
  (∀ f ∈ c.files, Holds f source → t ∈ f.trainIds → fileEntries f instr source key t = es) ∧ (¬ Covered c source t → es = [])

/-- The two collections have the same trains, sources and keys, and the same entries for each field and train. -/
structure SameData (c d : DC V) : Prop where
  trains : c.trainIds = d.trainIds
  control : ∀ source, source ∈ c.controlSources ↔ source ∈ d.controlSources
  instrument : ∀ source, source ∈ c.instrumentSources ↔ source ∈ d.instrumentSources
  keys : ∀ source key, Available c source key ↔ Available d source key
  entries : ∀ instr source key, HasField c instr source key → ∀ t ∈ c.trainIds, ∀ es,
    HoldsEntries c instr source key t es ↔ HoldsEntries d instr source key t es

end KD.Spec

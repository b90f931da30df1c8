/-
The orders in which sets may be gone through, and files with the same contents.
-/
import Verif.Spec.Data
import Verif.Model.SetOrder

namespace KD.Spec

variable {V : Type}

/-- An order in which Python may go through the sources of the collection and their keys: each is there once. -/
structure OrderFor (c : DC V) (o : SetOrder) : Prop where
  control : o.control.Perm c.controlSources
  instrument : o.instrument.Perm c.instrumentSources
  keys : ∀ source ∈ c.allSources, ∃ ks, c.keysForSource source = .ok ks ∧ (o.keys source).Perm ks

/-- The two files have the same contents: the same train IDs, version and lists of sources, and at each path the same index and the same
dataset. (The order in which HDF5 keeps objects in a file can not be seen.) -/
structure SameStored (h h' : H5File V) : Prop where
  trainId : h.trainId = h'.trainId
  version : h.version = h'.version
  sources05 : h.sources05 = h'.sources05
  sources10 : h.sources10 = h'.sources10
  index : ∀ path, h.index.get? path = h'.index.get? path
  groups : ∀ path, path ∈ h.groups ↔ path ∈ h'.groups
  datasets : ∀ path, h.datasets.get? path = h'.datasets.get? path

end KD.Spec

/-
Writing on disk: what may be seen in a file which is not complete, and which files a call may touch.
-/
import Verif.Model.WriteDisk
import Verif.Spec.Data

namespace KD.Spec

variable {V : Type}

/-- Opening the file (without cached information) raises KeyError. -/
def Unreadable (h : H5File V) : Prop := ∀ name, FileAccess.init name h none = .error .key

/-- The file opens, but has no source. -/
def ShowsNothing (h : H5File V) : Prop :=
  ∀ name, ∃ f, FileAccess.init name h none = .ok f ∧ f.controlSources = [] ∧ f.instrumentSources = []

/-- The files of the collection are on disk as the collection knows them. -/
def OnDisk (s : Store V) (c : DC V) : Prop := ∀ f ∈ c.files, s.disk f.filename = some f.file

/-- Two disks differ at most in the file with this name. -/
def SameElsewhere (name : Str) (s s' : Store V) : Prop := ∀ n, n ≠ name → s'.disk n = s.disk n

/-- There is data to read in this file: a selected source with some key. -/
def Needed (c : DC V) (f : FileAccess V) : Prop :=
  ∃ source ∈ c.selection.keys, (source ∈ f.controlSources ∨ source ∈ f.instrumentSources) ∧
    ∃ keys, c.keysForSource source = .ok keys ∧ keys ≠ []

/-- A dataset of a new file: that of a field of the collection, with the rows of `get_array`, one per train for control data. -/
def FieldDataset (c : DC V) (x : Path × Dataset V) : Prop :=
  ∃ b s k a, HasField c b s k ∧ x.1 = sectionName b :: (h5path s ++ h5path (replaceCh '.' '/' k)) ∧ c.getArray s k id = .ok a ∧
    x.2 = ⟨a.rows, a.rowShape, a.dtype⟩ ∧ (b = false → a.rows.length = c.trainIds.length)

/-- A virtual dataset of a new file: that of a field of the collection, showing what `get_array` gives (if it gives something). -/
def VirtualField (c : DC V) (x : Path × Dataset V) : Prop :=
  ∃ b s k, HasField c b s k ∧ x.1 = sectionName b :: (h5path s ++ h5path (replaceCh '.' '/' k)) ∧
    ∀ a, c.getArray s k id = .ok a → x.2 = ⟨a.rows, a.rowShape, a.dtype⟩

end KD.Spec

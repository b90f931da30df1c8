/-
Writing CXI files on disk: what a complete file is, and which files hold the frames of a detector.
-/
import Verif.Model.CxiDisk
import Verif.Spec.Collection

namespace KD.Spec

variable {V : Type}

/-- The file is complete: everything of the CXI file `x` is in it. -/
structure CompleteCxi (x : Cxi V) (f : CxiFile V) : Prop where
  version : f.version = true
  experimentIds : f.experimentIds = some x.experimentIds
  pulseIds : f.pulseIds = some x.pulseIds
  trainIds : f.trainIds = some x.trainIds
  dataGain : f.dataGain = x.dataGain
  layouts : f.layouts.Perm x.layouts
  modules : f.modules = some x.modules

/-- The file has nothing in it, not even the version. -/
structure EmptyCxi (f : CxiFile V) : Prop where
  version : f.version = false
  experimentIds : f.experimentIds = none
  pulseIds : f.pulseIds = none
  trainIds : f.trainIds = none
  dataGain : f.dataGain = none
  layouts : f.layouts = []
  modules : f.modules = none

/-- The file has a part of the CXI file `x`: each dataset in it is the right one, except that the names of the frames and of the gain
stages may still be empty strings. A file with frames has all labels of frames. A file without version is empty. -/
structure PartCxi (x : Cxi V) (f : CxiFile V) : Prop where
  version : f.version = false → EmptyCxi f
  experimentIds : f.experimentIds = none ∨ f.experimentIds = some (x.pulseIds.map (fun _ => [])) ∨ f.experimentIds = some x.experimentIds
  pulseIds : f.pulseIds = none ∨ f.pulseIds = some x.pulseIds
  trainIds : f.trainIds = none ∨ f.trainIds = some x.trainIds
  dataGain : f.dataGain = none ∨ ∃ l, x.dataGain = some l ∧ (f.dataGain = some (l.map (fun _ => [])) ∨ f.dataGain = some l)
  layouts : ∀ l ∈ f.layouts, l ∈ x.layouts
  labels : f.layouts ≠ [] → f.experimentIds = some x.experimentIds ∧ f.pulseIds = some x.pulseIds ∧ f.trainIds = some x.trainIds
  modules : f.modules = none ∨ f.modules = some x.modules

/-- A file of the collection which has one of the modules of the detector. -/
def ModuleFile (d : Det V) (f : FileAccess V) : Prop := f ∈ d.data.files ∧ ∃ x ∈ d.sourceToModno, Holds f x.1

end KD.Spec

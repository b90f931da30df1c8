/-
Axes of datasets in CXI files: names of dimensions.
-/
import Verif.Model.CxiTree

namespace KD.Spec

variable {V : Type}

/-- The attribute names the dimensions, with colons between them. -/
def AxisNames (axes : Str) (names : List Str) : Prop := joinCh ':' names = axes ∧ ∀ n ∈ names, ':' ∉ n

/-- The sizes of the dimensions of a virtual dataset: frames, modules, and those of one entry. -/
def dimensions (l : Layout V) : List Nat := l.grid.rows :: l.grid.cols :: l.rowShape

/-- The number of entries of a dataset with one dimension. -/
def labelCount : CxiNode V → Option Nat
  | .numbers l => some l.length
  | .strings l => some l.length
  | _ => none

/-- Objects found next to the frames: `entry_1/data_1/…`. -/
def nextToFrames (t : List (CxiObj V)) (name : Str) : Option (CxiObj V) := openPath t [ch! "entry_1", ch! "data_1", name]

end KD.Spec

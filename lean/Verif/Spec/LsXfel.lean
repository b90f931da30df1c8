/-
What a user expects of `lsxfel`.
-/
import Verif.Spec.Names
import Verif.Model.LsXfel

namespace KD.Spec

/-- The name is `g-S<digits>.h5`, perhaps with more text after it. -/
def Seg (f g : Str) : Prop :=
  g ≠ [] ∧ '\n' ∉ g ∧ ∃ ds rest, ds ≠ [] ∧ (∀ c ∈ ds, c.isDigit) ∧ f = g ++ ch! "-S" ++ ds ++ ch! ".h5" ++ rest

/-- The file belongs to the sequence g: what is before the last `-S<digits>.h5`. -/
def SegOf (f g : Str) : Prop := Seg f g ∧ ∀ g', Seg f g' → g'.length ≤ g.length

/-- The file is a segment of some sequence. -/
def IsSegment (f : Str) : Prop := ∃ g, Seg f g

/-- The name of the file says that it has data of a detector. -/
def IsDetFile (f : Str) : Prop :=
  ∃ rawcorr run src seg det n, HasName f rawcorr run src seg ∧ IsSrc src det n ∧ (det = ch! "AGIPD" ∨ det = ch! "DSSC" ∨ det = ch! "LPD")

/-- The name of the file has four parts. -/
def Named (f : Str) : Prop := ∃ rawcorr run src seg, HasName f rawcorr run src seg

/-- The file `f` in the folder `path` has the train t. -/
def HasTrain (fs : LsFs) (path f : Str) (t : Nat) : Prop := ∃ x, fs.h5file (osJoin path f) = .ok x ∧ t ∈ x.trainIds

/-- The name of a run: `r` and a digit, and any text. -/
def RunName (f : Str) : Prop := ∃ c rest, f = 'r' :: c :: rest ∧ c.isDigit

/-- A folder with a file `….h5`. -/
def RunFolder (fs : LsFs) (path : Str) : Prop := ∃ names, fs.node path = some (.dir names) ∧ ∃ f ∈ names, ∃ s, f = s ++ ch! ".h5"

/-- A folder with runs in it. -/
def RunsFolder (fs : LsFs) (path : Str) : Prop := ∃ names, fs.node path = some (.dir names) ∧ ∃ f ∈ names, RunName f

/-- A file `….h5`. -/
def DataFile (fs : LsFs) (path : Str) : Prop := fs.node path = some .file ∧ ∃ s, path = s ++ ch! ".h5"

/-- A path which `lsxfel` can describe. -/
def Recognised (fs : LsFs) (path : Str) : Prop := RunFolder fs path ∨ RunsFolder fs path ∨ DataFile fs path

/-- A folder. -/
def Folder (fs : LsFs) (path : Str) : Prop := ∃ names, fs.node path = some (.dir names)

end KD.Spec

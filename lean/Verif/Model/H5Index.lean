/-
`karabo_data.h5index`, /repo/karabo_data/h5index.py: the list of all datasets of an HDF5 file, as CSV.
-/
import Verif.Model.Writer

namespace KD

/-- What is in an HDF5 file: a dataset with its shape (`None` for an empty one) and the text of its type, or a group with its members
by name. Simplification: no object has several names. -/
inductive H5Obj where
  | data (shape : Option (List Nat)) (dtype : Str)
  | group (members : List (Str × H5Obj))

mutual

/-- `visititems` with the function `visitor`, h5index.py:13-17: the datasets with their paths. -/
def H5Obj.visit (pre : Path) : H5Obj → List (Path × Option (List Nat) × Str)
  | .data shape dtype => [(pre, shape, dtype)]
  | .group members => visitMembers pre members

/-- The members of a group, in the order in which HDF5 gives them. -/
def visitMembers (pre : Path) : List (Str × H5Obj) → List (Path × Option (List Nat) × Str)
  | [] => []
  | m :: ms => m.2.visit (pre ++ [m.1]) ++ visitMembers pre ms

end

/-- `str(item.shape)`, as `csv` writes it; `None` is written as an empty field. -/
def shapeText : Option (List Nat) → Str
  | none => []
  | some [] => ch! "()"
  | some [n] => '(' :: natStr n ++ ch! ",)"
  | some (n :: ns) => '(' :: natStr n ++ ns.flatMap (fun k => ch! ", " ++ natStr k) ++ ch! ")"

/-- A character for which the default dialect of `csv.writer` puts a field in quotes. -/
def csvSpecial (c : Char) : Bool := c == ',' || c == '"' || c == '\r' || c == '\n'

/-- A field written by `csv.writer`: quoted if it must be, with quotes doubled. -/
def csvField (s : Str) : Str :=
  if s.any csvSpecial then '"' :: s.flatMap (fun c => if c == '"' then ['"', '"'] else [c]) ++ ['"'] else s

/-- `writer.writerow(row)` for a row with several fields. -/
def csvRow (fields : List Str) : Str := joinCh ',' (fields.map csvField) ++ ['\r', '\n']

/-- The rows of `sorted(all_datasets)`, h5index.py:21: the paths are all different, so that the order is that of the paths. -/
def indexRows (root : H5Obj) : List (List Str) :=
  (((root.visit []).map (fun x => (joinCh '/' x.1, x.2.1, x.2.2))).insertionSort (fun x y => x.1 ≤ y.1)).map
    (fun x => [x.1, shapeText x.2.1, x.2.2])

/-- What `hdf5_datasets(grp)` prints, h5index.py:6-22. -/
def hdf5Datasets (root : H5Obj) : Str :=
  ([ch! "path", ch! "shape", ch! "dtype"] :: indexRows root).flatMap csvRow

end KD

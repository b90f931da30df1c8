/-
The arrays in the data of one train, as `train_from_id` and `trains` of reader.py give them to functions such as `stack_detector_data`.
-/
import Verif.Model.Collection
import Verif.Model.NdArray

namespace KD

variable {P : Type} [Inhabited P]

/-- The elements of several entries: the first index is the entry, the others are the position in it. Outside of the array there is nothing
to read (here `default`). -/
def entriesGet (rows : List (List Nat → P)) : List Nat → P
  | [] => default
  | i :: pixel => (rows.getD i (fun _ => default)) pixel

/-- The array which h5py gives for a dataset with the dtype `dt` and rows of the shape `shape`: `ds[i]` has the shape of a row, and
`ds[a:b]` has one dimension more, reader.py:453-456 and 1285-1288. One entry is a function from positions in it to elements. -/
def Entry.array (dt : Nat) (shape : List Nat) : Entry (List Nat → P) → Arr P
  | .one v => ⟨dt, shape, v⟩
  | .many rows => ⟨dt, rows.length :: shape, entriesGet rows⟩

/-- The data of one train as a dict of dicts of arrays, reader.py:424-458 and 1262-1290. `info` gives the dtype and the shape of the rows
for a source and key. Simplification: the entry 'metadata', which has no array, is left out. -/
def trainArrays (info : Str → Str → Nat × List Nat) (d : Dict Str (SourceData (List Nat → P))) : Dict Str (Dict Str (Arr P)) :=
  d.map (fun x => (x.1, x.2.data.map (fun y => (y.1, y.2.array (info x.1 y.1).1 (info x.1 y.1).2))))

end KD

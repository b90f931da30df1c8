/-
Tools for HDF5 files, /repo/karabo_data/utils.py:117-143: printing the names in a file and converting an image to CBF.
-/
import Verif.Model.H5Index

namespace KD

mutual

/-- What `hdf5_paths` prints about one member of a group, utils.py:121-125: its name, what is in it if it is a group, and otherwise its
name again. -/
def H5Obj.lines (indent maxlen : Nat) (name : Str) : H5Obj → List Str
  | .data _ _ => [List.replicate indent ' ' ++ name, List.replicate indent ' ' ++ name]
  | .group members => (List.replicate indent ' ' ++ name) :: memberLines (indent + 4) maxlen maxlen members

/-- The loop over `list(ds.keys())[:maxlen]`, utils.py:120; the second number is that of the members which are still to be printed.
Simplification: `maxlen` is not negative. -/
def memberLines (indent maxlen : Nat) : Nat → List (Str × H5Obj) → List Str
  | 0, _ => []
  | _ + 1, [] => []
  | k + 1, m :: ms => m.2.lines indent maxlen m.1 ++ memberLines indent maxlen k ms

end

/-- `hdf5_paths(ds, indent, maxlen)` for a group, utils.py:117-125: the printed lines. -/
def hdf5Paths (members : List (Str × H5Obj)) (indent maxlen : Nat) : List Str := memberLines indent maxlen maxlen members

/-- `images[index, ...]` for an h5py dataset: a negative number counts from the end, other numbers raise ValueError. -/
def h5Row {V : Type} (rows : List V) (i : Int) : R V :=
  match rows[(if i < 0 then i + rows.length else i).toNat]? with
  | some v => if i < 0 ∧ i + rows.length < 0 then .error .value else .ok v
  | none => .error .value

/-- `hdf5_to_cbf(in_h5file, cbf_filename, index, header)` with `numpy_to_cbf`, utils.py:128-143: the image which is written to the new
file, or the exception, in which case nothing is written. The argument `header` is not used. `METADATA/dataSourceId` is `sources05`. -/
def hdf5ToCbf {V : Type} (h : H5File V) (index : Int) : R V :=
  match need h.sources05 with
  | .error e => .error e
  | .ok paths =>
    match nth (paths.filter (fun p => endsWith p (ch! "image"))) 0 with
    | .error e => .error e
    | .ok p =>
      match need (h.datasets.get? (h5path (p ++ ch! "/data"))) with
      | .error e => .error e
      | .ok ds => h5Row ds.rows index

end KD

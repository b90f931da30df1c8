/-
Virtual files as they are stored: every entry of a virtual dataset refers to an entry of a dataset in another file
(`h5py.VirtualSource`, writer.py:143-148 and write_cxi.py:151-158), and is looked up when it is read.

The functions which make virtual files do not look at the entries of the datasets they link to, so they are used here as
they are in `Model/Writer.lean` and `Model/Cxi.lean`, with references in place of values.
-/
import Verif.Model.Cxi
import Verif.Model.WriteDisk

namespace KD

variable {V W : Type}

/-- One entry of a dataset of a file, as a virtual dataset refers to it: the name of the file, the name of the dataset and
the position. Simplification: names of files are absolute, so they mean the same file wherever the virtual file is. -/
structure Ref where
  file : Str
  path : Path
  row : Nat
  deriving DecidableEq, Repr

/-- A dataset with other values. -/
def Dataset.mapRows (g : V → W) (ds : Dataset V) : Dataset W := ⟨ds.rows.map g, ds.rowShape, ds.dtype⟩

/-- A file with other values in its datasets. -/
def H5File.mapRows (g : V → W) (h : H5File V) : H5File W :=
  ⟨h.trainId, h.version, h.sources05, h.sources10, h.index, h.groups, h.datasets.map (fun x => (x.1, x.2.mapRows g))⟩

/-- `h5py.VirtualSource(dataset)`, writer.py:146, write_cxi.py:157: references to all entries of the dataset. -/
def Dataset.refs (file : Str) (path : Path) (ds : Dataset V) : Dataset Ref :=
  ⟨(List.range ds.rows.length).map (fun i => ⟨file, path, i⟩), ds.rowShape, ds.dtype⟩

/-- A file with references in place of values. -/
def FileAccess.refs (f : FileAccess V) : FileAccess Ref :=
  ⟨f.filename, f.trainIds, f.controlSources, f.instrumentSources,
    ⟨f.file.trainId, f.file.version, f.file.sources05, f.file.sources10, f.file.index, f.file.groups,
      f.file.datasets.map (fun x => (x.1, x.2.refs f.filename x.1))⟩⟩

/-- A collection with references in place of values. -/
def DC.refs (c : DC V) : DC Ref := ⟨c.files.map FileAccess.refs, c.selection, c.trainIds, c.ctxCloses⟩

/-- The file which `write_virtual(filename)` stores, reader.py:1166-1183. -/
def DC.writeLinks (c : DC V) : R (H5File Ref) := c.refs.writeVirtual

/-- The dataset and the file which `get_virtual_dataset(source, key)` stores, reader.py:1185-1227. -/
def DC.virtualDatasetLinks (c : DC V) (source key : Str) : R (Dataset Ref × H5File Ref) := c.refs.getVirtualDataset source key

/-- What HDF5 gives when it reads a reference: `shows` is what each file on disk shows now (`none`: there is no such file).
A file, dataset or entry which does not exist is not an error. -/
def Ref.lookup (shows : Str → Option (H5File V)) (r : Ref) : Option V :=
  match shows r.file with
  | none => none
  | some h =>
    match h.datasets.get? r.path with
    | none => none
    | some ds => ds.rows[r.row]?

/-- The value read for a reference: the fill value of the dataset if there is none (0 for `create_virtual_dataset(path,
layout)`, writer.py:164 and 175). Simplification: one fill value for all data types. -/
def Ref.read (fill : V) (shows : Str → Option (H5File V)) (r : Ref) : V :=
  match r.lookup shows with
  | none => fill
  | some v => v

/-- What a virtual file shows when it is read. -/
def H5File.seen (fill : V) (shows : Str → Option (H5File V)) (h : H5File Ref) : H5File V := h.mapRows (Ref.read fill shows)

/-- A detector with references in place of values. -/
def Det.refs (d : Det V) : Det Ref := ⟨d.name, d.sourceToModno, d.framesPerTrain, d.data.refs⟩

/-- The file which `write_virtual_cxi(filename)` stores, components.py:353-367, write_cxi.py:166-225: the pulse IDs are
numbers, taken from the files when it is written (`shows`), images and cell IDs are links. -/
def Det.writeCxiLinks (d : Det V) (fill : V) (shows : Str → Option (H5File V)) (num : V → Nat) (moduleShape : List Nat) :
    R (Cxi Ref) :=
  d.refs.writeVirtualCxi (fun r => num (r.read fill shows)) moduleShape

/-- What one of the arrays in a CXI file shows when it is read; `none` is the fill value (nan, write_cxi.py:201-217). -/
def Layout.seen (shows : Str → Option (H5File V)) (l : Layout Ref) : Layout V :=
  ⟨l.name, l.rowShape, l.grid.rows, l.grid.cols, fun r c => (l.grid.cell r c).bind (Ref.lookup shows)⟩

/-- What a CXI file shows when it is read. -/
def Cxi.seen (shows : Str → Option (H5File V)) (x : Cxi Ref) : Cxi V :=
  ⟨x.experimentIds, x.pulseIds, x.trainIds, x.dataGain, x.layouts.map (Layout.seen shows), x.modules⟩

end KD

/-
Model of writing files, /repo/karabo_data/writer.py, and of `write`, `write_virtual` and `get_virtual_dataset`,
/repo/karabo_data/reader.py:1154-1227.
-/
import Verif.Model.Collection

namespace KD

variable {V : Type}

/-- The state of a `FileWriter`, writer.py:12-16: the datasets written so far, the indexes collected
(by path, as (first, count)) and the set of data sources. -/
structure WState (V : Type) where
  datasets : Dict Path (Dataset V)
  indexes : Dict Str (List Nat × List Nat)
  sources : List Str
  deriving DecidableEq, Repr

/-- A new writer, writer.py:12-16: the file is created empty (an existing file is overwritten). -/
def WState.new : WState V := ⟨[], [], []⟩

/-- Two names cannot both be datasets of an HDF5 file: they are equal, or one would be a group in the other. -/
def pathClash (p q : Path) : Bool := p.isPrefixOf q || q.isPrefixOf p

/-- `self.file[path] = values` (writer.py:22,42) or `create_virtual_dataset` (164,175): h5py raises an error when the
name exists already or cannot be created. -/
def WState.create (w : WState V) (path : Str) (ds : Dataset V) : R (WState V) :=
  let p := h5path path
  if w.datasets.any (fun kv => pathClash kv.1 p) then .error .generic
  else .ok { w with datasets := w.datasets ++ [(p, ds)] }

/-- Adding to a set. -/
def setAdd (l : List Str) (s : Str) : List Str := if s ∈ l then l else l ++ [s]

/-- `_make_control_index(source, data_tids)`, writer.py:25-37. Counts and sums are unsigned 64-bit; they are kept as
numbers here and reduced when the file is assembled (`indexGroup`). -/
def makeControlIndex (trainIds : List Nat) (w : WState V) (source : Str) (dataTids : List Nat) : R (WState V) :=
  match w.indexes.get? source with
  | some _ => .ok w
  | none =>
    if dataTids.dedup.length ≠ dataTids.length then .error .assertion
    else
      let counts := trainIds.map (fun t => if t ∈ dataTids then 1 else 0)
      .ok { w with
        indexes := w.indexes.set source (exclSums 0 counts, counts),
        sources := setAdd w.sources (ch! "CONTROL/" ++ source) }

/-- `np.diff(a)` for an array of unsigned 64-bit integers (as train IDs are): the differences wrap around. -/
def npDiffU64 : List Nat → List (BitVec 64)
  | a :: b :: l => (BitVec.ofNat 64 b - BitVec.ofNat 64 a) :: npDiffU64 (b :: l)
  | _ => []

/-- `_generate_index(data_tids)`, writer.py:51-59. The assertion on line 53 compares unsigned differences with 0. -/
def generateIndex (trainIds dataTids : List Nat) : R (List Nat × List Nat) :=
  if (npDiffU64 dataTids).all (fun d => decide (0#64 ≤ d)) then
    let counts := trainIds.map (fun t => dataTids.count t)
    .ok (exclSums 0 counts, counts)
  else .error .assertion

/-- `_make_instrument_index(source, key, data_tids)`, writer.py:45-49. -/
def makeInstrumentIndex (trainIds : List Nat) (w : WState V) (source key : Str) (dataTids : List Nat) :
    R (WState V) :=
  let indexPath := source ++ ch! "/" ++ (partition '.' key).1
  match w.indexes.get? indexPath with
  | some _ => .ok w
  | none =>
    match generateIndex trainIds dataTids with
    | .error e => .error e
    | .ok ix => .ok { w with
        indexes := w.indexes.set indexPath ix,
        sources := setAdd w.sources (ch! "INSTRUMENT/" ++ indexPath) }

/-- The path of a dataset, writer.py:21, 41, 163, 174. -/
def dataPath (sec source key : Str) : Str := sec ++ ch! "/" ++ source ++ ch! "/" ++ replaceCh '.' '/' key

/-- `FileWriter.add_control_dataset(source, key)`, writer.py:18-23. An array without data has no train
coordinate, so line 23 raises KeyError. -/
def addControl (c : DC V) (w : WState V) (source key : Str) : R (WState V) :=
  match c.getArray source key id with
  | .error e => .error e
  | .ok a =>
    if a.rows.length ≠ c.trainIds.length then .error .assertion
    else
      match w.create (dataPath ch! "CONTROL" source key) ⟨a.rows, a.rowShape, a.dtype⟩ with
      | .error e => .error e
      | .ok w =>
        match a.coords with
        | none => .error .key
        | some tids => makeControlIndex c.trainIds w source tids

/-- `FileWriter.add_instrument_dataset(source, key)`, writer.py:39-43. -/
def addInstrument (c : DC V) (w : WState V) (source key : Str) : R (WState V) :=
  match c.getArray source key id with
  | .error e => .error e
  | .ok a =>
    match w.create (dataPath ch! "INSTRUMENT" source key) ⟨a.rows, a.rowShape, a.dtype⟩ with
    | .error e => .error e
    | .ok w =>
      match a.coords with
      | none => .error .key
      | some tids => makeInstrumentIndex c.trainIds w source key tids

/-- The datasets `first` and `count` of one group, unsigned 64-bit: writer.py:33, 55, 67-68. -/
def indexGroup (ix : List Nat × List Nat) : IndexGroup :=
  ⟨some (ix.1.map (BitVec.ofNat 64)), some (ix.2.map (BitVec.ofNat 64)), none, none⟩

/-- The names of the datasets below INDEX/ so far: INDEX/trainId (writer.py:63) and those of the groups. -/
def indexNames (index : Dict Path IndexGroup) : List Path :=
  [ch! "INDEX", ch! "trainId"] :: index.flatMap (fun kv => [kv.1 ++ [ch! "first"], kv.1 ++ [ch! "count"]])

/-- One group written by `write_indexes`, writer.py:66-68; h5py raises an error on a clash of names. -/
def writeIndexGroup (index : Dict Path IndexGroup) (x : Str × (List Nat × List Nat)) : R (Dict Path IndexGroup) :=
  let p := h5path (ch! "INDEX/" ++ x.1)
  if (indexNames index).any (fun q => pathClash q (p ++ [ch! "first"]) || pathClash q (p ++ [ch! "count"]))
  then .error .generic
  else .ok (index ++ [(p, indexGroup x.2)])

/-- `sorted(l)` for strings. -/
def sortStrs (l : List Str) : List Str := l.insertionSort (· ≤ ·)

/-- The root and the device of a data source, `ds.split('/', 1)[0]` and `ds.split('/', 1)[1]`, writer.py:83 and 88. -/
def metadataParts (ds : Str) : R (Str × Str × Str) :=
  if '/' ∈ ds then .ok (ds, (partition '/' ds).1, (partition '/' ds).2) else .error .index

/-- The three datasets of `write_metadata()`, writer.py:70-88, as rows: dataSourceId, root and deviceId. -/
def writeMetadata (dataSources : List Str) : R (List (Str × Str × Str)) := mapE metadataParts dataSources

/-- The end of `write`, writer.py:107-109, and the content of the resulting file: train IDs (61-63), indexes (65-68),
metadata (70-88; of these only dataSourceId is kept here, the other two datasets are never read by this package and are in
`writeMetadata`, which never fails for these names: `metadata_written`), no format version,
which means version 0.5. -/
def WState.finish (w : WState V) (trainIds : List Nat) : R (H5File V) :=
  match foldE writeIndexGroup [] w.indexes with
  | .error e => .error e
  | .ok index => .ok ⟨some trainIds, none, some (sortStrs w.sources), none, index, [], w.datasets⟩

/-- One loop over the keys of a source, writer.py:100-101 and 104-105. -/
def writeSource (c : DC V) (add : WState V → Str → Str → R (WState V)) (w : WState V) (source : Str) : R (WState V) :=
  match c.keysForSource source with
  | .error e => .error e
  | .ok keys => foldE (fun w key => add w source key) w keys

/-- `FileWriter.write`, writer.py:95-109, with the two methods which add datasets as parameters. -/
def writeWith (c : DC V) (addC addI : WState V → Str → Str → R (WState V)) : R (H5File V) :=
  match foldE (writeSource c addC) WState.new c.controlSources with
  | .error e => .error e
  | .ok w =>
    match foldE (writeSource c addI) w c.instrumentSources with
    | .error e => .error e
    | .ok w => w.finish c.trainIds

/-- `write(filename)`, reader.py:1154-1164: the content of the new file. When an exception is raised the
incomplete file stays on disk: see `DC.writeSteps`. -/
def DC.write (c : DC V) : R (H5File V) := writeWith c (addControl c) (addInstrument c)

/-! ### Virtual datasets -/

/-- `(counts > 0).any()`, writer.py:130. -/
def Chunk.nonEmpty (ch : Chunk V) : Bool := ch.counts.any (fun n => decide (n > 0))

/-- The part of a virtual dataset coming from one chunk, writer.py:143-148: the slice of the source dataset.
The sizes of the selections must match. Simplification: the entries must have the shape of the virtual dataset (HDF5
compares numbers of elements), and no conversion between data types is modelled. -/
def virtualPart (shape : List Nat) (ch : Chunk V) : R (List V) :=
  match ch.dataset with
  | .error e => .error e
  | .ok ds =>
    let rows := sl ds.rows ch.first (ch.first + ch.counts.sum)
    if rows.length = ch.counts.sum ∧ ds.rowShape = shape then .ok rows else .error .value

/-- `_assemble_data(source, key)`, writer.py:126-156: the virtual dataset (as the data seen through it) and the
train ID of each entry; `none` when there is no data. -/
def assembleData (c : DC V) (source key : Str) : R (Option (Dataset V × List Nat)) :=
  match c.findDataChunks source key with
  | .error e => .error e
  | .ok cs =>
    match sortBy Chunk.sortKey (cs.filter Chunk.nonEmpty) with
    | [] => .ok none
    | ch0 :: chs =>
      match ch0.dataset with
      | .error e => .error e
      | .ok ds0 =>
        match mapE (virtualPart ds0.rowShape) (ch0 :: chs) with
        | .error e => .error e
        | .ok parts =>
          .ok (some (⟨parts.flatten, ds0.rowShape, ds0.dtype⟩,
            (ch0 :: chs).flatMap (fun ch => npRepeat ch.trainIds ch.counts)))

/-- `VirtualFileWriter.add_control_dataset(source, key)`, writer.py:158-167: also returns the path, if any. -/
def vAddControl (c : DC V) (w : WState V) (source key : Str) : R (WState V × Option Str) :=
  match assembleData c source key with
  | .error e => .error e
  | .ok none => .ok (w, none)
  | .ok (some (ds, tids)) =>
    match w.create (dataPath ch! "CONTROL" source key) ds with
    | .error e => .error e
    | .ok w =>
      match makeControlIndex c.trainIds w source tids with
      | .error e => .error e
      | .ok w => .ok (w, some (dataPath ch! "CONTROL" source key))

/-- `VirtualFileWriter.add_instrument_dataset(source, key)`, writer.py:169-178. -/
def vAddInstrument (c : DC V) (w : WState V) (source key : Str) : R (WState V × Option Str) :=
  match assembleData c source key with
  | .error e => .error e
  | .ok none => .ok (w, none)
  | .ok (some (ds, tids)) =>
    match w.create (dataPath ch! "INSTRUMENT" source key) ds with
    | .error e => .error e
    | .ok w =>
      match makeInstrumentIndex c.trainIds w source key tids with
      | .error e => .error e
      | .ok w => .ok (w, some (dataPath ch! "INSTRUMENT" source key))

/-- The writer state of a result with a path. -/
def dropPath (r : R (WState V × Option Str)) : R (WState V) :=
  match r with
  | .error e => .error e
  | .ok (w, _) => .ok w

/-- `write_virtual(filename)`, reader.py:1166-1183. -/
def DC.writeVirtual (c : DC V) : R (H5File V) :=
  writeWith c (fun w s k => dropPath (vAddControl c w s k)) (fun w s k => dropPath (vAddInstrument c w s k))

/-- The dataset and the file at the end of `get_virtual_dataset`, reader.py:1218-1227; `f[None]` is a TypeError. -/
def finishVirtual (c : DC V) (r : R (WState V × Option Str)) : R (Dataset V × H5File V) :=
  match r with
  | .error e => .error e
  | .ok (w, path) =>
    match w.finish c.trainIds with
    | .error e => .error e
    | .ok h =>
      match path with
      | none => .error .type
      | some p =>
        match h.datasets.get? (h5path p) with
        | none => .error .key
        | some ds => .ok (ds, h)

/-- `get_virtual_dataset(source, key)`, reader.py:1185-1227: the dataset returned, and the file it is in. -/
def DC.getVirtualDataset (c : DC V) (source key : Str) : R (Dataset V × H5File V) :=
  match c.checkField source key with
  | .error e => .error e
  | .ok () =>
    if source ∈ c.controlSources then finishVirtual c (vAddControl c WState.new source key)
    else finishVirtual c (vAddInstrument c WState.new source key)

end KD

/-
Model of `FileAccess`, /repo/karabo_data/reader.py:67-212: opening one HDF5 file in European XFEL format,
reading its train IDs, sources, index and keys.
-/
import Verif.Model.Py

namespace KD

/-- A name inside an HDF5 file, as path components. -/
abbrev Path := List Str

/-- h5py's reading of a path string: components separated by '/', empty components ignored. -/
def h5path (s : Str) : Path := (splitCh '/' s).filter (fun c => !c.isEmpty)

/-- An HDF5 dataset: its entries along the first axis, the shape of one entry, and the data type
(an opaque number). Simplification: the content of an entry is an arbitrary value of type `V`. -/
structure Dataset (V : Type) where
  rows : List V
  rowShape : List Nat
  dtype : Nat
  deriving DecidableEq, Repr

/-- The datasets of one group below INDEX/; unsigned 64-bit integers (docs/data_format.rst).
`count` exists in the current format, `last` and `status` in the oldest one (reader.py:179-184). -/
structure IndexGroup where
  first : Option (List (BitVec 64))
  count : Option (List (BitVec 64))
  last : Option (List (BitVec 64))
  status : Option (List (BitVec 64))
  deriving DecidableEq, Repr

/-- The content of an HDF5 file in European XFEL format.
`trainId` is INDEX/trainId, `version` METADATA/dataFormatVersion, `sources05` METADATA/dataSourceId,
`sources10` METADATA/dataSources/dataSourceId (reader.py:107-129); `index` the groups below INDEX/,
`groups` the (possibly empty) groups and `datasets` the datasets below CONTROL/ and INSTRUMENT/. -/
structure H5File (V : Type) where
  trainId : Option (List Nat)
  version : Option Str
  sources05 : Option (List Str)
  sources10 : Option (List Str)
  index : Dict Path IndexGroup
  groups : List Path
  datasets : Dict Path (Dataset V)
  deriving DecidableEq, Repr

/-- A lookup in the file which must succeed: h5py raises KeyError otherwise. -/
def need {α : Type _} (x : Option α) : R α :=
  match x with
  | some a => .ok a
  | none => .error .key

/-- `FileAccess`: the name, the cached information and the file. reader.py:78-94. -/
structure FileAccess (V : Type) where
  filename : Str
  trainIds : List Nat
  controlSources : List Str
  instrumentSources : List Str
  file : H5File V
  deriving DecidableEq, Repr

/-- `format_version`, reader.py:107-118. -/
def formatVersion {V : Type} (h : H5File V) : Str :=
  match h.version with
  | some v => v
  | none => ch! "0.5"

/-- One iteration of the loop of `_read_data_sources`, reader.py:129-143:
returns (control sources, instrument sources) with the new source added. -/
def readSource (acc : List Str × List Str) (source : Str) : R (List Str × List Str) :=
  if source.isEmpty then .ok acc
  else
    let category := (partition '/' source).1
    let h5Source := (partition '/' source).2
    if category = ch! "INSTRUMENT" then
      let device := (partition ':' h5Source).1
      let chanGrp := (partition ':' h5Source).2
      let chan := (partition '/' chanGrp).1
      .ok (acc.1, acc.2 ++ [device ++ ':' :: chan])
    else if category = ch! "CONTROL" then .ok (acc.1 ++ [h5Source], acc.2)
    else .error .value

/-- `_read_data_sources`, reader.py:120-145. Sets are lists without repetition. -/
def readDataSources {V : Type} (h : H5File V) : R (List Str × List Str) :=
  match need (if formatVersion h = ch! "0.5" then h.sources05 else h.sources10) with
  | .error e => .error e
  | .ok srcs =>
    match foldE readSource ([], []) srcs with
    | .error e => .error e
    | .ok (c, i) => .ok (c.dedup, i.dedup)

/-- What the run files map knows about a file, run_files_map.py:111-125. -/
structure CacheInfo where
  trainIds : List Nat
  controlSources : List Str
  instrumentSources : List Str
  deriving DecidableEq, Repr

/-- `FileAccess.__init__`, reader.py:78-94. -/
def FileAccess.init {V : Type} (filename : Str) (h : H5File V) (cacheInfo : Option CacheInfo) :
    R (FileAccess V) :=
  match cacheInfo with
  | some ci => .ok ⟨filename, ci.trainIds, ci.controlSources, ci.instrumentSources, h⟩
  | none =>
    match need h.trainId with
    | .error e => .error e
    | .ok tidData =>
      match readDataSources h with
      | .error e => .error e
      | .ok (c, i) => .ok ⟨filename, tidData.filter (fun t => t != 0), c, i, h⟩

/-- `all_sources`, reader.py:156-158. -/
def FileAccess.allSources {V : Type} (f : FileAccess V) : List Str :=
  f.controlSources ++ f.instrumentSources

/-- Combining columns which must have equal lengths (ValueError otherwise). -/
def zipSame {α β γ : Type _} (f : α → β → γ) (a : List α) (b : List β) : R (List γ) :=
  if a.length = b.length then .ok (List.zipWith f a b) else .error .value

/-- numpy's elementwise operation on arrays with one dimension: the lengths are equal, or one array has one entry, which
is used with all entries of the other (ValueError otherwise). -/
def zipBroad {α β γ : Type _} (f : α → β → γ) (a : List α) (b : List β) : R (List γ) :=
  if a.length = b.length then .ok (List.zipWith f a b)
  else
    match a, b with
    | [x], _ => .ok (b.map (fun y => f x y))
    | _, [y] => .ok (a.map (fun x => f x y))
    | _, _ => .error .value

/-- `_read_index(source, group)`, reader.py:172-185. The arithmetic on line 184 is unsigned 64-bit. -/
def FileAccess.readIndex {V : Type} (f : FileAccess V) (source group : Str) : R (List Nat × List Nat) :=
  let ntrains := f.trainIds.length
  match need (f.file.index.get? (h5path (ch! "/INDEX/" ++ source ++ ch! "/" ++ group))) with
  | .error e => .error e
  | .ok ix =>
    match need ix.first with
    | .error e => .error e
    | .ok first =>
      let firsts := first.take ntrains
      match ix.count with
      | some c => .ok (firsts.map BitVec.toNat, (c.take ntrains).map BitVec.toNat)
      | none =>
        match need ix.status, need ix.last with
        | .ok status, .ok last =>
          match zipBroad (fun l f => l - f + 1#64) (last.take ntrains) firsts with
          | .error e => .error e
          | .ok ns =>
            match zipBroad (fun n s => n * s) ns (status.take ntrains) with
            | .error e => .error e
            | .ok counts => .ok (firsts.map BitVec.toNat, counts.map BitVec.toNat)
        | _, _ => .error .key

/-- `get_index(source, group)` without its cache, reader.py:160-170 (the cache is in `FileCache`). -/
def FileAccess.getIndex {V : Type} (f : FileAccess V) (source group : Str) : R (List Nat × List Nat) :=
  f.readIndex source group

/-- The datasets below a group, with their names relative to it, joined with '/'
(h5py's `visititems`); KeyError when the group does not exist. -/
def visitDatasets {V : Type} (h : H5File V) (group : Path) : R (List Str) :=
  let below := h.datasets.filterMap (fun kv =>
    if group.isPrefixOf kv.1 && kv.1.length > group.length
    then some (joinCh '/' (kv.1.drop group.length)) else none)
  if below.isEmpty && !(h.groups.contains group) then .error .key else .ok below

/-- `get_keys(source)` without its cache, reader.py:187-212. -/
def FileAccess.readKeys {V : Type} (f : FileAccess V) (source : Str) : R (List Str) :=
  if source ∈ f.controlSources then
    match visitDatasets f.file (h5path (ch! "/CONTROL/" ++ source)) with
    | .error e => .error e
    | .ok names => .ok (names.map (replaceCh '/' '.')).dedup
  else if source ∈ f.instrumentSources then
    match visitDatasets f.file (h5path (ch! "/INSTRUMENT/" ++ source)) with
    | .error e => .error e
    | .ok names => .ok (names.map (replaceCh '/' '.')).dedup
  else .error .sourceName

/-- `get_keys(source)`, as seen by callers. -/
def FileAccess.getKeys {V : Type} (f : FileAccess V) (source : Str) : R (List Str) := f.readKeys source

/-- `f.file['/SECTION/source/' + key.replace('.', '/')]`, e.g. reader.py:434-435, read_machinery.py:114-116. -/
def FileAccess.dataset {V : Type} (f : FileAccess V) (sec source key : Str) : R (Dataset V) :=
  need (f.file.datasets.get?
    (h5path (ch! "/" ++ sec ++ ch! "/" ++ source ++ ch! "/" ++ replaceCh '.' '/' key)))

/-! ### Caches and closing: one `FileAccess` object over time -/

/-- The mutable part of a `FileAccess`: the h5py handle (open or not), and the two caches.
reader.py:75-76, 91-94. -/
structure FileState where
  isOpen : Bool
  indexCache : Dict (Str × Str) (List Nat × List Nat)
  keysCache : Dict Str (List Str)
  deriving DecidableEq, Repr

/-- `file` property, reader.py:96-100: opens the file if it is not open. -/
def FileState.touch (s : FileState) : FileState := { s with isOpen := true }

/-- `close()`, reader.py:102-105. -/
def FileState.close (s : FileState) : FileState := { s with isOpen := false }

/-- `get_index` with its cache, reader.py:160-170; an exception of `_read_index` leaves no entry. -/
def getIndexCached {V : Type} (f : FileAccess V) (s : FileState) (source group : Str) :
    R (List Nat × List Nat) × FileState :=
  match s.indexCache.get? (source, group) with
  | some ix => (.ok ix, s)
  | none =>
    match f.readIndex source group with
    | .error e => (.error e, s.touch)
    | .ok ix => (.ok ix, { s.touch with indexCache := s.indexCache.set (source, group) ix })

/-- `get_keys` with its cache, reader.py:187-212; an unknown source is refused before touching the file. -/
def getKeysCached {V : Type} (f : FileAccess V) (s : FileState) (source : Str) :
    R (List Str) × FileState :=
  match s.keysCache.get? source with
  | some ks => (.ok ks, s)
  | none =>
    if source ∈ f.controlSources ∨ source ∈ f.instrumentSources then
      match f.readKeys source with
      | .error e => (.error e, s.touch)
      | .ok ks => (.ok ks, { s.touch with keysCache := s.keysCache.set source ks })
    else (.error .sourceName, s)

/-- Reading a dataset, which opens the file if needed. -/
def datasetCached {V : Type} (f : FileAccess V) (s : FileState) (sec source key : Str) :
    R (Dataset V) × FileState := (f.dataset sec source key, s.touch)

end KD

/-
Model of `DataCollection` and `TrainIterator`, /repo/karabo_data/reader.py:215-1297.
-/
import Verif.Model.FileAccess
import Verif.Model.ReadMachinery
import Verif.Model.Glob

namespace KD

variable {V : Type}

/-- `DataCollection`: the files, the selection, the train IDs and whether leaving a `with` block closes the files.
The other attributes set by `__init__` (reader.py:237-250) are functions of these, below. -/
structure DC (V : Type) where
  files : List (FileAccess V)
  selection : Selection
  trainIds : List Nat
  ctxCloses : Bool
  deriving DecidableEq, Repr

/-- `control_sources`, reader.py:237-241, 249. Set iteration order is arbitrary in Python; here it is fixed. -/
def DC.controlSources (c : DC V) : List Str :=
  (c.files.flatMap (fun f => f.controlSources.filter (fun s => s ∈ c.selection.keys))).dedup

/-- `instrument_sources`, reader.py:238-242, 250. -/
def DC.instrumentSources (c : DC V) : List Str :=
  (c.files.flatMap (fun f => f.instrumentSources.filter (fun s => s ∈ c.selection.keys))).dedup

/-- `all_sources`, reader.py:295-297. -/
def DC.allSources (c : DC V) : List Str := (c.controlSources ++ c.instrumentSources).dedup

/-- `_source_index[source]`, reader.py:239-244: the files holding the source, in order. -/
def DC.sourceIndex (c : DC V) (source : Str) : List (FileAccess V) :=
  c.files.filter (fun f => source ∈ f.controlSources ∨ source ∈ f.instrumentSources)

/-- The inner loop of `_check_source_conflicts` for one source, reader.py:984-989:
does some file have a train ID already seen? -/
def conflictIn : List Nat → List (FileAccess V) → Bool
  | _, [] => false
  | got, f :: fs =>
    if got.any (fun t => t ∈ f.trainIds) then true else conflictIn (got ++ f.trainIds) fs

/-- `_check_source_conflicts`, reader.py:979-995: is there any source with conflicts? -/
def hasConflicts (files : List (FileAccess V)) : Bool :=
  (files.flatMap (fun f => f.controlSources ++ f.instrumentSources)).any (fun source =>
    conflictIn [] (files.filter (fun f => source ∈ f.controlSources ∨ source ∈ f.instrumentSources)))

/-- The default selection, reader.py:230-234. -/
def defaultSelection (files : List (FileAccess V)) : Selection :=
  files.foldl (fun sel f =>
    (sel.update (f.controlSources.map (fun s => (s, none)))).update
      (f.instrumentSources.map (fun s => (s, none)))) []

/-- `DataCollection.__init__`, reader.py:224-254. -/
def DC.make (files : List (FileAccess V)) (selection : Option Selection) (trainIds : Option (List Nat))
    (ctxCloses : Bool) : R (DC V) :=
  let sel := match selection with
    | some s => s
    | none => defaultSelection files
  if hasConflicts files then .error .value
  else
    .ok ⟨files, sel,
      (match trainIds with
       | some ts => ts
       | none => sortedSet (files.flatMap (fun f => f.trainIds))),
      ctxCloses⟩

/-- `from_paths(paths, _files_map)`, reader.py:256-272. Each path comes with the outcome of
`FileAccess(path, _cache_info=cache_info)`: the opened file, or an exception, which is caught (lines 261-267). -/
def DC.fromPaths (opened : List (R (FileAccess V))) : R (DC V) :=
  let files := opened.filterMap Except.toOption
  if files.isEmpty then .error .generic else DC.make files none none true

/-- `from_path(path)` / `H5File(path)`, reader.py:274-277, 1300-1314. -/
def DC.fromPath (opened : R (FileAccess V)) : R (DC V) :=
  match opened with
  | .error e => .error e
  | .ok f => DC.make [f] none none true

/-- `__enter__`, reader.py:279-287. -/
def DC.enter (c : DC V) : R (DC V) := if c.ctxCloses then .ok c else .error .generic

/-- `keys_for_source(source)`, reader.py:309-327. KeyError if the source is not in the selection.
Simplification: when no file holds the source the code returns None, which makes its callers raise
TypeError; that is the error given here. Key sets are lists here, in which a key might be repeated: it counts once. -/
def DC.keysForSource (c : DC V) (source : Str) : R (List Str) :=
  match c.selection.get? source with
  | none => .error .key
  | some (some ks) => .ok ks.dedup
  | some none =>
    match (c.sourceIndex source).head? with
    | some f => f.getKeys source
    | none => .error .type

/-- `_check_field(source, key)`, reader.py:303-307. -/
def DC.checkField (c : DC V) (source key : Str) : R Unit :=
  if source ∉ c.allSources then .error .sourceName
  else
    match c.keysForSource source with
    | .error e => .error e
    | .ok ks => if key ∉ ks then .error .propertyName else .ok ()

/-- `_find_data(source, train_id)`, reader.py:1035-1041: first file with the train, and the position in it. -/
def findDataIn (files : List (FileAccess V)) (tid : Nat) : Option (FileAccess V × Nat) :=
  match files with
  | [] => none
  | f :: fs =>
    match nonzero (f.trainIds.map (fun t => t == tid)) with
    | i :: _ => some (f, i)
    | [] => findDataIn fs tid

/-- `_find_data(source, train_id)`, reader.py:1035-1041. -/
def DC.findData (c : DC V) (source : Str) (tid : Nat) : Option (FileAccess V × Nat) :=
  findDataIn (c.sourceIndex source) tid

/-! ### Selecting sources and keys -/

/-- The argument of `select`: a dict of key sets, a list of pattern pairs, or anything else.
A pair of two strings is converted to a one-element list (reader.py:884-885). -/
inductive SelArg where
  | dict (d : List (Str × List Str))
  | globs (l : List (Str × Str))
  | other

/-- Which keys of one source match, reader.py:827-833: `none` if the source gets no entry. -/
def DC.globSource (c : DC V) (keyGlob source : Str) : R (Option (Str × Option (List Str))) :=
  if keyGlob = ch! "*" then .ok (some (source, none))
  else
    match c.keysForSource source with
    | .error e => .error e
    | .ok ks =>
      let optValue := !(endsWith keyGlob ch! ".value" || endsWith keyGlob ch! "*")
      let m := if optValue && decide (source ∈ c.controlSources)
        then globMatchOptValue keyGlob else globMatch keyGlob
      let keys := ks.filter m
      if keys.isEmpty then .ok none else .ok (some (source, some keys))

/-- `_select_glob(source_glob, key_glob)`, reader.py:811-838. -/
def DC.selectGlob (c : DC V) (sourceGlob keyGlob : Str) : R Selection :=
  match mapE (c.globSource keyGlob) (c.allSources.filter (globMatch sourceGlob)) with
  | .error e => .error e
  | .ok rs =>
    let matched := rs.filterMap id
    if matched.isEmpty then .error .value else .ok matched

/-- One iteration of the dict case of `_expand_selection`, reader.py:794-798.
`res[source].update(keys or None)`: an empty set makes it `update(None)`, a TypeError. -/
def DC.expandDictItem (c : DC V) (res : Selection) (kv : Str × List Str) : R Selection :=
  if kv.1 ∉ c.allSources then .error .sourceName
  else if kv.2.isEmpty then .error .type
  else
    .ok (res.set kv.1 (some ((match res.get? kv.1 with
      | some (some ks) => ks
      | _ => []) ++ kv.2)))

/-- `_expand_selection(selection)`, reader.py:789-809. In the last case (line 807) the TypeError is created
but not raised, so the result is an empty selection. -/
def DC.expandSelection (c : DC V) (sel : SelArg) : R Selection :=
  match sel with
  | .dict d => foldE c.expandDictItem [] d
  | .globs l =>
    match mapE (fun sk => c.selectGlob sk.1 sk.2) l with
    | .error e => .error e
    | .ok sels => .ok (unionSelections sels)
  | .other => .ok []

/-- The files having one of the selected sources, reader.py:888-889, 922-923. -/
def DC.filesFor (c : DC V) (sel : Selection) : List (FileAccess V) :=
  c.files.filter (fun f => f.allSources.any (fun s => s ∈ sel.keys))

/-- `select(seln)`, reader.py:840-891. -/
def DC.select (c : DC V) (sel : SelArg) : R (DC V) :=
  match c.expandSelection sel with
  | .error e => .error e
  | .ok selection => DC.make (c.filesFor selection) (some selection) (some c.trainIds) false

/-- One iteration of the loop of `deselect`, reader.py:908-920. -/
def DC.deselectItem (c : DC V) (desel : Selection) (kv : Str × Option (List Str)) :
    R (Option (Str × Option (List Str))) :=
  match desel.get? kv.1 with
  | none => .ok (some kv)
  | some none => .ok none
  | some (some dk) =>
    match (match kv.2 with
      | some ks => (.ok ks : R (List Str))
      | none => c.keysForSource kv.1) with
    | .error e => .error e
    | .ok ks => .ok (some (kv.1, some (ks.filter (fun k => k ∉ dk))))

/-- `deselect(seln)`, reader.py:893-925. -/
def DC.deselect (c : DC V) (sel : SelArg) : R (DC V) :=
  match c.expandSelection sel with
  | .error e => .error e
  | .ok desel =>
    match mapE (c.deselectItem desel) c.selection with
    | .error e => .error e
    | .ok items =>
      let selection := items.filterMap id
      DC.make (c.filesFor selection) (some selection) (some c.trainIds) false

/-- Removing duplicates by filename, keeping the first: a set of `FileAccess` objects
(equality and hash by filename, reader.py:147-151). -/
def dedupFilesAux (seen : List Str) : List (FileAccess V) → List (FileAccess V)
  | [] => []
  | f :: fs =>
    if f.filename ∈ seen then dedupFilesAux seen fs else f :: dedupFilesAux (f.filename :: seen) fs

/-- `set(files)`, reader.py:776-780, in order of first appearance. -/
def dedupFiles (l : List (FileAccess V)) : List (FileAccess V) := dedupFilesAux [] l

/-- `union(*others)`, reader.py:767-787. `order` stands for the order in which Python iterates over the set of files:
`order` of a list is some rearrangement of it (a hypothesis of the theorems). -/
def DC.union (order : List (FileAccess V) → List (FileAccess V)) (c : DC V) (others : List (DC V)) :
    R (DC V) :=
  let cs := c :: others
  DC.make (order (dedupFiles (cs.flatMap DC.files)))
    (some (unionSelections (cs.map DC.selection)))
    (some (sortedSet (cs.flatMap DC.trainIds))) false

/-! ### Selecting trains -/

/-- The argument of `select_trains`: `by_id[...]` or `by_index[...]` with a slice or a list, or anything else. -/
inductive TrainRange where
  | idSlice (start stop : Option TidBound) (step : Option Int)
  | indexSlice (start stop step : Option Int)
  | idList (ids : List Int)
  | indexList (ixs : List Int)
  | other

/-- The new train IDs computed by `select_trains`, reader.py:951-972. -/
def selectTrainIds (trainIds : List Nat) (tr : TrainRange) : R (List Nat) :=
  match tr with
  | .idSlice start stop step =>
    match tidToSliceIx start trainIds false with
    | .error e => .error e
    | .ok startIx =>
      match tidToSliceIx stop trainIds true with
      | .error e => .error e
      | .ok stopIx => pySlice trainIds (startIx.map Int.ofNat) (stopIx.map Int.ofNat) step
  | .indexSlice start stop step => pySlice trainIds start stop step
  | .idList ids =>
    let new := sortedSet (trainIds.filter (fun (t : Nat) => (t : Int) ∈ ids))
    if new.isEmpty then .error .value else .ok new
  | .indexList ixs =>
    match mapE (pyIndex trainIds) ixs with
    | .error e => .error e
    | .ok ts => .ok (ts.insertionSort (· ≤ ·))
  | .other => .error .type

/-- `select_trains(train_range)`, reader.py:927-977. -/
def DC.selectTrains (c : DC V) (tr : TrainRange) : R (DC V) :=
  match selectTrainIds c.trainIds tr with
  | .error e => .error e
  | .ok new =>
    DC.make (c.files.filter (fun f => f.trainIds.any (fun t => t ∈ new)))
      (some c.selection) (some new) false

/-! ### Reading arrays -/

/-- `DataChunk`, read_machinery.py:90-102. -/
structure Chunk (V : Type) where
  file : FileAccess V
  source : Str
  key : Str
  first : Nat
  trainIds : List Nat
  counts : List Nat

/-- `DataChunk.dataset`, read_machinery.py:108-116: instrument data takes precedence. -/
def Chunk.dataset (ch : Chunk V) : R (Dataset V) :=
  if ch.source ∈ ch.file.instrumentSources then ch.file.dataset ch! "INSTRUMENT" ch.source ch.key
  else if ch.source ∈ ch.file.controlSources then ch.file.dataset ch! "CONTROL" ch.source ch.key
  else .error .sourceName

/-- The group in the index for a key, reader.py:1006-1009. -/
def DC.keyGroup (c : DC V) (source key : Str) : Str :=
  if source ∈ c.instrumentSources then (partition '.' key).1 else []

/-- The chunk of one contiguous region, reader.py:1019-1025. -/
def regionChunk (f : FileAccess V) (source key : Str) (firsts counts : List Nat) (r : Nat × Nat) : R (Chunk V) :=
  match nth firsts r.1 with
  | .error e => .error e
  | .ok first => .ok (Chunk.mk f source key first (sl f.trainIds r.1 r.2) (sl counts r.1 r.2))

/-- The chunks of one file, reader.py:1011-1033. -/
def DC.chunksOfFile (c : DC V) (source key : Str) (f : FileAccess V) : R (List (Chunk V)) :=
  match f.getIndex source (c.keyGroup source key) with
  | .error e => .error e
  | .ok (firsts, counts) =>
    let selected := f.trainIds.map (fun t => decide (t ∈ c.trainIds))
    match contiguousRegions selected with
    | .error e => .error e
    | .ok regions =>
      match mapE (regionChunk f source key firsts counts) regions with
      | .error e => .error e
      | .ok chunks => if chunks.isEmpty then .ok [Chunk.mk f source key 0 [] []] else .ok chunks

/-- `_find_data_chunks(source, key)`, reader.py:1001-1033. -/
def DC.findDataChunks (c : DC V) (source key : Str) : R (List (Chunk V)) :=
  match mapE (c.chunksOfFile source key) (c.sourceIndex source) with
  | .error e => .error e
  | .ok l => .ok l.flatten

/-- `_expand_trainids(counts, trainIds)`, reader.py:997-999 (`npRepeat` stops at the shorter list). -/
def expandTrainIds (counts trainIds : List Nat) : List Nat := npRepeat trainIds counts

/-- The sort key of chunks, reader.py:661-664. -/
def Chunk.sortKey (ch : Chunk V) : Nat :=
  match ch.trainIds with
  | t :: _ => t
  | [] => 0

/-- A labelled array as returned by `get_array`: entries, their train labels (`none`: no coordinate), entry shape
before the region of interest, and data type. -/
structure LArr (W : Type) where
  rows : List W
  coords : Option (List Nat)
  rowShape : List Nat
  dtype : Nat
  deriving DecidableEq, Repr

/-- h5py's `Dataset.read_direct` of the rows found into a part of an array with `n` rows (reader.py:702; h5py's
`SimpleSelection.broadcast`): the number of rows must match, except that a single row is copied to all `n`. -/
def h5Fill {W : Type} (n : Nat) (rows : List W) : R (List W) :=
  if rows.length = n then .ok rows
  else
    match rows with
    | [r] => .ok (List.replicate n r)
    | _ => .error .type

/-- Reading one chunk, reader.py:693-702: `read_direct` of the slice (clipped to the dataset) into a part of the
result with the number of rows computed from the counts. `none` for an empty chunk, which is skipped.
Simplification: the sum of the counts (uint64 in the code) is not reduced modulo 2^64. -/
def readChunk {W : Type} (roi : V → W) (ch : Chunk V) : R (Option (List W × List Nat)) :=
  let n := ch.counts.sum
  if n = 0 then .ok none
  else
    match ch.dataset with
    | .error e => .error e
    | .ok ds =>
      match h5Fill n ((sl ds.rows ch.first (ch.first + n)).map roi) with
      | .error e => .error e
      | .ok rows => .ok (some (rows, expandTrainIds ch.counts ch.trainIds))

/-- `get_array(source, key, roi=roi)`, reader.py:620-714. `roi` is what the region of interest does to each entry
(`id` by default): the selection applies to all dimensions but the first (lines 643-648, 701). -/
def DC.getArray {W : Type} (c : DC V) (source key : Str) (roi : V → W) : R (LArr W) :=
  match c.checkField source key with
  | .error e => .error e
  | .ok () =>
    match c.findDataChunks source key with
    | .error e => .error e
    | .ok cs =>
      let chunks := sortBy Chunk.sortKey cs
      match mapE Chunk.dataset chunks with
      | .error e => .error e
      | .ok dss =>
        let shapes := (dss.map Dataset.rowShape).dedup
        let dtypes := (dss.map Dataset.dtype).dedup
        if shapes.length > 1 then .error .generic
        else if dtypes.length > 1 then .error .generic
        else
          match shapes, dtypes with
          | shape :: _, dtype :: _ =>
            match mapE (readChunk roi) chunks with
            | .error e => .error e
            | .ok parts =>
              let parts := parts.filterMap id
              let rows := (parts.map Prod.fst).flatten
              .ok ⟨rows,
                if (chunks.map (fun ch => ch.counts.sum)).sum = 0 then none
                else some (parts.map Prod.snd).flatten,
                shape, dtype⟩
          | _, _ => .error .key

/-- The halving loop of `get_dask_array`, reader.py:757-759: `rowBytes` is the size of one entry.
`fuel` bounds the iterations; `daskChunk` supplies enough. -/
def daskChunkAux (rowBytes limit : Nat) : Nat → Nat → Nat
  | 0, d => d
  | fuel + 1, d => if d * rowBytes > limit ∧ d > 1 then daskChunkAux rowBytes limit fuel (d / 2) else d

/-- The chunk length chosen by `get_dask_array`, reader.py:745-759. -/
def daskChunk (rowBytes dim0 : Nat) : Nat := daskChunkAux rowBytes (2 * 1024 ^ 3) dim0 dim0

/-- The part of one chunk, reader.py:744-763: entries, and their shape. `da.from_array` divides the length of the
dataset by the chunk length, so that a chunk without entries of a dataset with some is a ZeroDivisionError. -/
def daskPart (ch : Chunk V) : R (List V × List Nat) :=
  match ch.dataset with
  | .error e => .error e
  | .ok ds =>
    if ch.counts.sum = 0 ∧ ds.rows ≠ [] then .error .zeroDivision
    else .ok (sl ds.rows ch.first (ch.first + ch.counts.sum), ds.rowShape)

/-- Whether an array has any elements (`a.size`). -/
def partFull (p : List V × List Nat) : Bool := !p.1.isEmpty && !(p.2.contains 0)

/-- `da.concatenate(parts, axis=0)`, reader.py:765: nothing to join is a ValueError, as are entries of different shapes
in the parts with any elements. Simplification: parts of different data types are converted to a common type, which
is not modelled. -/
def daskConcat (parts : List (List V × List Nat)) : R (List V) :=
  if parts.isEmpty then .error .value
  else if ((parts.filter partFull).map Prod.snd).dedup.length > 1 then .error .value
  else .ok (parts.map Prod.fst).flatten

/-- The computed value of `get_dask_array(source, key)`, reader.py:716-765: concatenation of
the dataset slices of the chunks. There is no check of the field (an unknown source gives
`da.concatenate([])`, a ValueError). -/
def DC.getDaskArray (c : DC V) (source key : Str) : R (List V) :=
  match c.findDataChunks source key with
  | .error e => .error e
  | .ok cs =>
    match mapE daskPart (sortBy Chunk.sortKey cs) with
    | .error e => .error e
    | .ok parts => daskConcat parts

/-! ### Counts and series -/

/-- `np.ones(f.train_ids)` at reader.py:501, then `pd.Series(counts, index=f.train_ids)` at line 505.
The train IDs are used as the *shape*, so unless the file has exactly one train, with ID 1, this fails: an array
with more than one dimension is refused by `pd.Series`, as is a length different from the index
(or numpy runs out of memory or dimensions first). All these are one error here. -/
def onesSeries (trainIds : List Nat) : R (List (Nat × Nat)) :=
  if trainIds = [1] then .ok [(1, 1)] else .error .value

/-- The counts of one file, reader.py:499-505. -/
def DC.countsOfFile (c : DC V) (source key : Str) (f : FileAccess V) : R (List (Nat × Nat)) :=
  if source ∈ c.controlSources then onesSeries f.trainIds
  else
    match f.getIndex source (partition '.' key).1 with
    | .error e => .error e
    | .ok (_, counts) => zipSame (fun t n => (t, n)) f.trainIds counts

/-- `s.index[0]` in `get_data_counts`, reader.py:507 (an empty part is an error before this is used). -/
def countsKey : List (Nat × Nat) → Nat
  | (t, _) :: _ => t
  | [] => 0

/-- `get_data_counts(source, key)`, reader.py:482-510, as (train ID, count) pairs.
Sorting looks at `s.index[0]` (IndexError for a file without trains). `index.intersection` followed by `loc` keeps the
order of the concatenated series. -/
def DC.getDataCounts (c : DC V) (source key : Str) : R (List (Nat × Nat)) :=
  match c.checkField source key with
  | .error e => .error e
  | .ok () =>
    match mapE (c.countsOfFile source key) (c.sourceIndex source) with
    | .error e => .error e
    | .ok sers =>
      if sers.any List.isEmpty then .error .index
      else
        let ser := (sortBy countsKey sers).flatten
        .ok (ser.filter (fun p => p.1 ∈ c.trainIds))

/-- One entry of a series: train ID, pulse ID (for pulse-resolved data) and value. -/
structure SeriesRow (V : Type) where
  tid : Nat
  pulse : Option V
  val : V
  deriving DecidableEq, Repr

/-- `pd.Series(data, ...)` needs data with one dimension, reader.py:546, 568: pandas raises an Exception otherwise. -/
def plainData (ds : Dataset V) : R (List V) := if ds.rowShape = [] then .ok ds.rows else .error .generic

/-- `pulse_id[: len(index), 0]` as labels, reader.py:557-561: h5py refuses two indices for one dimension with TypeError and
a position 0 which does not exist with ValueError; labels with more dimensions are a ValueError. Simplification: an entry
with one element is that element. -/
def pulseLabels (ps : Dataset V) : R (List V) :=
  match ps.rowShape with
  | [] => .error .type
  | [_ + 1] => .ok ps.rows
  | _ => .error .value

/-- `assert data.shape[1] == 1; data = data[:, 0]` and then `pd.Series(data, ...)`, reader.py:563-568. -/
def pulseData (ds : Dataset V) : R (List V) :=
  match ds.rowShape with
  | [] => .error .index
  | [1] => .ok ds.rows
  | 1 :: _ :: _ => .error .generic
  | _ => .error .assertion

/-- The part of `get_series` for one file with control data, reader.py:541-546. -/
def seriesControl (f : FileAccess V) (source key : Str) : R (List (SeriesRow V)) :=
  match f.dataset ch! "CONTROL" source key with
  | .error e => .error e
  | .ok ds =>
    match plainData ds with
    | .error e => .error e
    | .ok rows => zipSame (fun t v => ⟨t, none, v⟩) f.trainIds (rows.take f.trainIds.length)

/-- The part of `get_series` for one file with instrument data, reader.py:549-568. -/
def seriesInstrument (f : FileAccess V) (source key : Str) : R (List (SeriesRow V)) :=
  let group := (partition '.' key).1
  match f.getIndex source group with
  | .error e => .error e
  | .ok (_, counts) =>
    let trainids := expandTrainIds counts f.trainIds
    match f.dataset ch! "INSTRUMENT" source key with
    | .error e => .error e
    | .ok ds =>
      if trainids.Nodup then
        match plainData ds with
        | .error e => .error e
        | .ok rows => zipSame (fun t v => ⟨t, none, v⟩) trainids (rows.take trainids.length)
      else
        match f.dataset ch! "INSTRUMENT" source (group ++ ch! ".pulseId") with
        | .error e => .error e
        | .ok pulses =>
          match pulseLabels pulses with
          | .error e => .error e
          | .ok ps =>
            match zipSame (fun t p => (t, p)) trainids (ps.take trainids.length) with
            | .error e => .error e
            | .ok idx =>
              match pulseData ds with
              | .error e => .error e
              | .ok rows => zipSame (fun (tp : Nat × V) v => ⟨tp.1, some tp.2, v⟩) idx (rows.take trainids.length)

/-- The series of one file, reader.py:540-568. -/
def DC.seriesOfFile (c : DC V) (source key : Str) (f : FileAccess V) : R (List (SeriesRow V)) :=
  if source ∈ c.controlSources then seriesControl f source key else seriesInstrument f source key

/-- `s.index[0]` in `get_series`, reader.py:572 (an empty part is an error before this is used). -/
def seriesKey : List (SeriesRow V) → Nat
  | r :: _ => r.tid
  | [] => 0

/-- Sorting the parts compares `s.index[0]`, reader.py:572. When some parts have train IDs as labels and others
(train ID, pulse ID) tuples, comparing a numpy integer with a tuple gives an array of two booleans, whose truth value is
a ValueError; some such comparison is always made. -/
def mixedLabels (sers : List (List (SeriesRow V))) : Bool :=
  sers.any (fun s => s.any (fun r => r.pulse.isSome)) && sers.any (fun s => s.any (fun r => r.pulse.isNone))

/-- `get_series(source, key)`, reader.py:512-582. Sorting looks at `s.index[0]` (IndexError for an empty part).
Selecting with `loc` keeps the order of the concatenated series. Simplification: tuples are compared by train ID only
(equal train IDs in different files would be compared by pulse ID). -/
def DC.getSeries (c : DC V) (source key : Str) : R (List (SeriesRow V)) :=
  match c.checkField source key with
  | .error e => .error e
  | .ok () =>
    match mapE (c.seriesOfFile source key) (c.sourceIndex source) with
    | .error e => .error e
    | .ok sers =>
      if sers.any List.isEmpty then .error .index
      else if mixedLabels sers then .error .value
      else
        let ser := (sortBy seriesKey sers).flatten
        .ok (ser.filter (fun r => decide (r.tid ∈ c.trainIds)))

/-- The name of a series, reader.py:534-536. -/
def seriesName (source key : Str) : Str :=
  let name := source ++ '/' :: key
  if endsWith name ch! ".value" then name.take (name.length - 6) else name

/-- One column of `get_dataframe`, reader.py:616. -/
def DC.column (c : DC V) (source key : Str) : R (Str × List (SeriesRow V)) :=
  match c.getSeries source key with
  | .error e => .error e
  | .ok s => .ok (seriesName source key, s)

/-- The columns for one source, reader.py:613-616. -/
def DC.columnsOf (c : DC V) (timestamps : Bool) (source : Str) : R (List (Str × List (SeriesRow V))) :=
  match c.keysForSource source with
  | .error e => .error e
  | .ok ks => mapE (c.column source) (ks.filter (fun key => timestamps || !(endsWith key ch! ".timestamp")))

/-- The columns of `get_dataframe(timestamps=timestamps)`, reader.py:611-618, as named series. ValueError when there is
nothing to concatenate. How `pd.concat` aligns the rows of the columns is in Model/Frame.lean (`DC.dataframe`). -/
def DC.getDataframe (c : DC V) (timestamps : Bool) : R (List (Str × List (SeriesRow V))) :=
  match mapE (c.columnsOf timestamps) c.allSources with
  | .error e => .error e
  | .ok cols => if cols.flatten.isEmpty then .error .value else .ok cols.flatten

/-- `get_dataframe(fields, timestamps=timestamps)`, reader.py:608-609. -/
def DC.getDataframeSel (c : DC V) (fields : Option SelArg) (timestamps : Bool) : R (List (Str × List (SeriesRow V))) :=
  match fields with
  | none => c.getDataframe timestamps
  | some sel =>
    match c.select sel with
    | .error e => .error e
    | .ok d => d.getDataframe timestamps

/-! ### One train at a time -/

/-- The value for one key in one train: a single entry, or an array of entries. -/
inductive Entry (V : Type) where
  | one (v : V)
  | many (l : List V)
  deriving DecidableEq, Repr

/-- The data of one source for one train, with its 'metadata' dict (reader.py:426-428). -/
structure SourceData (V : Type) where
  mdSource : Str
  mdTid : Nat
  data : Dict Str (Entry V)
  deriving DecidableEq, Repr

/-- `ds[i]` -/
def Dataset.row (ds : Dataset V) (i : Nat) : R V := nth ds.rows i

/-- The entry for one control key of `train_from_id`, reader.py:434-435. -/
def controlEntry (f : FileAccess V) (pos : Nat) (source key : Str) : R (Str × Entry V) :=
  match f.dataset ch! "CONTROL" source key with
  | .error e => .error e
  | .ok ds =>
    match ds.row pos with
    | .error e => .error e
    | .ok v => .ok (key, Entry.one v)

/-- The control part of `train_from_id`, reader.py:425-435. -/
def DC.trainControl (c : DC V) (tid : Nat) (source : Str) : R (Str × SourceData V) :=
  match c.findData source tid with
  | none => .ok (source, ⟨source, tid, []⟩)
  | some (f, pos) =>
    match c.keysForSource source with
    | .error e => .error e
    | .ok ks =>
      match mapE (controlEntry f pos source) ks with
      | .error e => .error e
      | .ok items => .ok (source, ⟨source, tid, items⟩)

/-- The entry for one instrument key of `train_from_id`, reader.py:445-456; `none`: no entry for the key. -/
def instrumentEntry (f : FileAccess V) (pos : Nat) (source key : Str) : R (Option (Str × Entry V)) :=
  match f.getIndex source (partition '.' key).1 with
  | .error e => .error e
  | .ok (firsts, counts) =>
    match nth firsts pos, nth counts pos with
    | .ok first, .ok count =>
      if count = 0 then .ok none
      else
        match f.dataset ch! "INSTRUMENT" source key with
        | .error e => .error e
        | .ok ds =>
          if count = 1 then
            match ds.row first with
            | .error e => .error e
            | .ok v => .ok (some (key, .one v))
          else .ok (some (key, .many (sl ds.rows first (first + count))))
    | .error e, _ => .error e
    | _, .error e => .error e

/-- The instrument part of `train_from_id`, reader.py:437-456. -/
def DC.trainInstrument (c : DC V) (tid : Nat) (source : Str) : R (Str × SourceData V) :=
  match c.findData source tid with
  | none => .ok (source, ⟨source, tid, []⟩)
  | some (f, pos) =>
    match c.keysForSource source with
    | .error e => .error e
    | .ok ks =>
      match mapE (instrumentEntry f pos source) ks with
      | .error e => .error e
      | .ok items => .ok (source, ⟨source, tid, items.filterMap id⟩)

/-- `train_from_id(train_id)` without a selection, reader.py:418-419, 424-458. -/
def DC.trainFromId (c : DC V) (tid : Nat) : R (Nat × Dict Str (SourceData V)) :=
  if tid ∉ c.trainIds then .error .trainId
  else
    match mapE (c.trainControl tid) c.controlSources, mapE (c.trainInstrument tid) c.instrumentSources with
    | .ok ctrl, .ok inst => .ok (tid, Dict.update (Dict.update [] ctrl) inst)
    | .error e, _ => .error e
    | _, .error e => .error e

/-- `train_from_id(train_id, devices)`, reader.py:393-458: the selection is applied after the check of the train ID. -/
def DC.trainFromIdSel (c : DC V) (tid : Nat) (devices : Option SelArg) :
    R (Nat × Dict Str (SourceData V)) :=
  match devices with
  | none => c.trainFromId tid
  | some d =>
    if tid ∉ c.trainIds then .error .trainId
    else
      match c.select d with
      | .error e => .error e
      | .ok c' => c'.trainFromId tid

/-- `train_from_index(train_index, devices)`, reader.py:460-480. -/
def DC.trainFromIndex (c : DC V) (i : Int) (devices : Option SelArg) :
    R (Nat × Dict Str (SourceData V)) :=
  match pyIndex c.trainIds i with
  | .error e => .error e
  | .ok tid => c.trainFromIdSel tid devices

/-! ### Iterating over trains -/

/-- Is the count of this group 0 for the train at this position? reader.py:346-347. -/
def groupMissing (f : FileAccess V) (pos : Nat) (source group : Str) : R Bool :=
  match f.getIndex source group with
  | .error e => .error e
  | .ok (_, counts) =>
    match nth counts pos with
    | .error e => .error e
    | .ok n => .ok (n == 0)

/-- `_check_data_missing(tid)` for one instrument source, reader.py:340-348. -/
def DC.instrumentMissing (c : DC V) (tid : Nat) (source : Str) : R Bool :=
  match c.findData source tid with
  | none => .ok true
  | some (f, pos) =>
    match c.keysForSource source with
    | .error e => .error e
    | .ok ks => anyE (groupMissing f pos source) (ks.map (fun k => (partition '.' k).1)).dedup

/-- `_check_data_missing(tid)`, reader.py:332-350. -/
def DC.checkDataMissing (c : DC V) (tid : Nat) : R Bool :=
  if c.controlSources.any (fun s => (c.findData s tid).isNone) then .ok true
  else anyE (c.instrumentMissing tid) c.instrumentSources

/-- The cache of a `TrainIterator`: {(source, key): (file, dataset)}, reader.py:1238-1239. -/
abbrev DsCache (V : Type) := Dict (Str × Str) (FileAccess V × Dataset V)

/-- The lookup in the cache, reader.py:1242-1249; `none` if there is nothing cached or the cached file does not have
the train. -/
def cachedFind (cache : DsCache V) (source key : Str) (tid : Nat) : Option (FileAccess V × Nat × Dataset V) :=
  match cache.get? (source, key) with
  | some (f, ds) =>
    match nonzero (f.trainIds.map (fun t => t == tid)) with
    | i :: _ => some (f, i, ds)
    | [] => none
  | none => none

/-- `TrainIterator._find_data(source, key, tid)`, reader.py:1241-1260; returns the new cache too. -/
def DC.iterFind (c : DC V) (cache : DsCache V) (source key : Str) (tid : Nat) :
    R (Option (FileAccess V × Nat × Dataset V)) × DsCache V :=
  match cachedFind cache source key tid with
  | some r => (.ok (some r), cache)
  | none =>
    let sec := if source ∈ c.controlSources then ch! "CONTROL" else ch! "INSTRUMENT"
    match c.findData source tid with
    | none => (.ok none, cache)
    | some (f, pos) =>
      match f.dataset sec source key with
      | .error e => (.error e, cache)
      | .ok ds => (.ok (some (f, pos, ds)), cache.set (source, key) (f, ds))

/-- A loop over keys threading the cache and collecting (key, entry) pairs. -/
def DC.iterKeys (c : DC V) (entry : FileAccess V × Nat × Dataset V → Str → R (Entry V))
    (source : Str) (tid : Nat) : DsCache V → List Str → R (Dict Str (Entry V)) × DsCache V
  | cache, [] => (.ok [], cache)
  | cache, key :: ks =>
    match c.iterFind cache source key tid with
    | (.error e, cache') => (.error e, cache')
    | (.ok none, cache') => c.iterKeys entry source tid cache' ks
    | (.ok (some r), cache') =>
      match entry r key with
      | .error e => (.error e, cache')
      | .ok v =>
        match c.iterKeys entry source tid cache' ks with
        | (.error e, cache'') => (.error e, cache'')
        | (.ok l, cache'') => (.ok ((key, v) :: l), cache'')

/-- Control entry: `ds[pos]`, reader.py:1272. -/
def iterControlEntry (r : FileAccess V × Nat × Dataset V) (_key : Str) : R (Entry V) :=
  match r.2.2.row r.2.1 with
  | .error e => .error e
  | .ok v => .ok (.one v)

/-- Instrument entry, reader.py:1282-1288. -/
def iterInstrumentEntry (source : Str) (r : FileAccess V × Nat × Dataset V) (key : Str) : R (Entry V) :=
  match r.1.getIndex source (partition '.' key).1 with
  | .error e => .error e
  | .ok (firsts, counts) =>
    match nth firsts r.2.1, nth counts r.2.1 with
    | .ok first, .ok count =>
      if count = 1 then
        match r.2.2.row first with
        | .error e => .error e
        | .ok v => .ok (.one v)
      else .ok (.many (sl r.2.2.rows first (first + count)))
    | .error e, _ => .error e
    | _, .error e => .error e

/-- A loop over sources threading the cache, reader.py:1264-1288. -/
def DC.iterSources (c : DC V) (entry : Str → FileAccess V × Nat × Dataset V → Str → R (Entry V))
    (tid : Nat) : DsCache V → List Str → R (List (Str × SourceData V)) × DsCache V
  | cache, [] => (.ok [], cache)
  | cache, source :: ss =>
    match c.keysForSource source with
    | .error e => (.error e, cache)
    | .ok ks =>
      match c.iterKeys (entry source) source tid cache ks with
      | (.error e, cache') => (.error e, cache')
      | (.ok items, cache') =>
        match c.iterSources entry tid cache' ss with
        | (.error e, cache'') => (.error e, cache'')
        | (.ok l, cache'') => (.ok ((source, ⟨source, tid, items⟩) :: l), cache'')

/-- `_assemble_data(tid)`, reader.py:1262-1290. -/
def DC.assemble (c : DC V) (cache : DsCache V) (tid : Nat) : R (Dict Str (SourceData V)) × DsCache V :=
  match c.iterSources (fun _ => iterControlEntry) tid cache c.controlSources with
  | (.error e, cache') => (.error e, cache')
  | (.ok ctrl, cache') =>
    match c.iterSources iterInstrumentEntry tid cache' c.instrumentSources with
    | (.error e, cache'') => (.error e, cache'')
    | (.ok inst, cache'') => (.ok (Dict.update (Dict.update [] ctrl) inst), cache'')

/-- `TrainIterator.__iter__`, reader.py:1292-1297: the items yielded, stopping at the first exception. -/
def DC.iterTrains (c : DC V) (requireAll : Bool) :
    DsCache V → List Nat → R (List (Nat × Dict Str (SourceData V)))
  | _, [] => .ok []
  | cache, tid :: ts =>
    match (if requireAll then c.checkDataMissing tid else .ok false) with
    | .error e => .error e
    | .ok true => c.iterTrains requireAll cache ts
    | .ok false =>
      match c.assemble cache tid with
      | (.error e, _) => .error e
      | (.ok d, cache') =>
        match c.iterTrains requireAll cache' ts with
        | .error e => .error e
        | .ok l => .ok ((tid, d) :: l)

/-- `trains(devices, train_range, require_all)`, reader.py:386-391. -/
def DC.trains (c : DC V) (devices : Option SelArg) (trainRange : Option TrainRange) (requireAll : Bool) :
    R (List (Nat × Dict Str (SourceData V))) :=
  match (match devices with
    | none => (.ok c : R (DC V))
    | some d => c.select d) with
  | .error e => .error e
  | .ok c1 =>
    match (match trainRange with
      | none => (.ok c1 : R (DC V))
      | some tr => c1.selectTrains tr) with
    | .error e => .error e
    | .ok c2 => c2.iterTrains requireAll [] c2.trainIds

/-- What `train_info(train_id)` prints, reader.py:1127-1152: (instrument sources, control sources). -/
def DC.trainInfo (c : DC V) (tid : Nat) : R (List Str × List Str) :=
  if tid ∉ c.trainIds then .error .value
  else
    let files := c.files.filter (fun f => tid ∈ f.trainIds)
    .ok ((files.flatMap (fun f => f.instrumentSources)).dedup, (files.flatMap (fun f => f.controlSources)).dedup)

/-- `DETECTOR_SOURCE_RE.match(source)` for the regular expression `(.+)/DET/(\d+)CH`, read_machinery.py:18, as the two
groups. `splitAtDet` looks for the last place where the rest of the expression matches, as `.+` is greedy.
Simplification: `.` here matches newlines too, and `\d` only the ASCII digits. -/
def splitAtDet : Str → Str → Option (Str × Str)
  | _, [] => none
  | before, c :: rest =>
    match splitAtDet (before ++ [c]) rest with
    | some r => some r
    | none =>
      if before ≠ [] ∧ startsWith (c :: rest) ch! "/DET/" then
        let digits := ((c :: rest).drop 5).takeWhile Char.isDigit
        if digits ≠ [] ∧ startsWith (((c :: rest).drop 5).drop digits.length) ch! "CH" then some (before, digits) else none
      else none

/-- `DETECTOR_SOURCE_RE.match(source)`, read_machinery.py:18. -/
def detectorMatch (source : Str) : Option (Str × Str) := splitAtDet [] source

/-- `detector_sources`, reader.py:299-301. -/
def DC.detectorSources (c : DC V) : List Str := c.instrumentSources.filter (fun s => (detectorMatch s).isSome)

/-- `sorted(source_files, key=lambda fa: fa.filename)[0]` at reader.py:1104; IndexError without files. -/
def firstByName : List (FileAccess V) → R (FileAccess V)
  | [] => .error .index
  | f :: fs =>
    match firstByName fs with
    | .error _ => .ok f
    | .ok g => if g.filename < f.filename then .ok g else .ok f

/-- `detector_info(source)`, reader.py:1095-1125, as (pixel dimensions, frames per train, total frames).
`pick` is the arbitrary choice made by `counts.pop()` among the different non-zero counts. -/
def DC.detectorInfo (c : DC V) (pick : List Nat → Nat) (source : Str) : R (List Nat × Nat × Nat) :=
  match firstByName (c.sourceIndex source) with
  | .error e => .error e
  | .ok f =>
    match f.getIndex source ch! "image" with
    | .error e => .error e
    | .ok (_, counts) =>
      let nonz := (counts.filter (fun n => n != 0)).dedup
      let fpt := if nonz.isEmpty then 0 else pick nonz
      match f.dataset ch! "INSTRUMENT" source ch! "image.data" with
      | .error e => .error e
      | .ok ds =>
        let shape := ds.rows.length :: ds.rowShape
        .ok (shape.drop (shape.length - 2), fpt, fpt * c.trainIds.length)

/-- `x < y` for tuples of two strings. -/
def modLt (x y : Str × Str) : Bool := decide (x.1 < y.1) || (decide (x.1 = y.1) && decide (x.2 < y.2))

/-- The names and numbers of detector modules with their sources, reader.py:1053-1056, before they are put in the dict. -/
def detectorModules (sources : List Str) : List ((Str × Str) × Str) :=
  sources.filterMap (fun s => (detectorMatch s).map (fun m => (m, s)))

/-- The first module shown as an example, reader.py:1073-1074: the least (name, number); where two sources have the same,
the last one was kept in the dict. The order of a Python set is arbitrary; here it is that of the list. -/
def leastModule : List ((Str × Str) × Str) → Option ((Str × Str) × Str)
  | [] => none
  | m :: ms =>
    match leastModule ms with
    | none => some m
    | some n => if modLt m.1 n.1 then some m else some n

/-- What `info()` prints, reader.py:1043-1093: numbers and lists. `span` is the duration in tenths of a second;
`module` is the example: name, number, source, and what `detector_info` gives for it.
The text around these, and the duration as text, are in Model/InfoText.lean. -/
structure InfoOut where
  trains : Nat
  first : Nat
  last : Nat
  span : Nat
  detectorSources : Nat
  detectorNames : List Str
  module : Option ((Str × Str) × Str × List Nat × Nat × Nat)
  instrument : List Str
  control : List Str
  deriving DecidableEq, Repr

/-- `last_train - first_train` at reader.py:1050, for numpy's uint64: modulo 2^64. -/
def trainSpan (first last : Nat) : Nat := (last + 2 ^ 64 - first) % 2 ^ 64

/-- The example module of `info()`, reader.py:1071-1082. -/
def DC.infoModule (c : DC V) (pick : List Nat → Nat) : R (Option ((Str × Str) × Str × List Nat × Nat × Nat)) :=
  match leastModule (detectorModules c.detectorSources) with
  | none => .ok none
  | some (m, source) =>
    match c.detectorInfo pick source with
    | .error e => .error e
    | .ok d => .ok (some (m, source, d))

/-- `info()`, reader.py:1043-1093; IndexError when there are no trains. `datetime.timedelta` raises OverflowError for
10^9 days or more, which are 864 * 10^12 trains. -/
def DC.info (c : DC V) (pick : List Nat → Nat) : R InfoOut :=
  match nth c.trainIds 0, pyIndex c.trainIds (-1) with
  | .ok first, .ok last =>
    let span := trainSpan first last
    if span ≥ 864 * 10 ^ 12 then .error .overflow
    else
      match c.infoModule pick with
      | .error e => .error e
      | .ok m =>
        .ok ⟨c.trainIds.length, first, last, span, c.detectorSources.length,
          ((detectorModules c.detectorSources).map (fun x => x.1.1)).dedup.insertionSort (· ≤ ·), m,
          (c.instrumentSources.filter (fun s => s ∉ c.detectorSources)).insertionSort (· ≤ ·),
          c.controlSources.insertionSort (· ≤ ·)⟩
  | .error e, _ => .error e
  | _, .error e => .error e

end KD

/-
Virtual CXI files: karabo_data/write_cxi.py (all of it).

The contents of the file are modelled, not how HDF5 stores them: a virtual dataset is the table of entries one reads from it.
-/
import Verif.Model.Components

namespace KD

variable {V W : Type}

/-- A two-dimensional array: frames (rows) by modules (columns). Only the cells with row < `rows` and column < `cols` are
part of the array. -/
structure Grid (W : Type) where
  rows : Nat
  cols : Nat
  cell : Nat → Nat → W

/-- `n_modules`, components.py:85. -/
def nModules : Nat := 16

/-- `self.nframes`, write_cxi.py:34-35. Simplification: the product does not overflow. -/
def Det.nframes (d : Det V) : Nat := d.data.trainIds.length * d.framesPerTrain

/-- `self.train_ids_perframe`, write_cxi.py:39. -/
def Det.tidsPerFrame (d : Det V) : List Nat := d.data.trainIds.flatMap (List.replicate d.framesPerTrain)

/-- `self.train_id_to_ix`, write_cxi.py:41-42. -/
def Det.trainIdToIx (d : Det V) : Dict Nat Nat :=
  Dict.update [] (d.data.trainIds.zip ((List.range d.data.trainIds.length).map (fun i => i * d.framesPerTrain)))

/-- `target[start : start+n, col] = matched`, write_cxi.py:109. The caller makes sure that the rows exist. A single value
is used for all rows (`broadcast`, numpy only), otherwise the numbers must be equal. For virtual layouts
HDF5 finds the wrong number later, in `create_virtual_dataset`: see Model/CxiDisk.lean. -/
def Grid.assign (g : Grid W) (broadcast : Bool) (start n col : Nat) (vals : List W) : R (Grid W) :=
  if g.cols ≤ col then .error .index
  else if vals.length = n then
    .ok { g with cell := fun r c =>
      if c = col ∧ start ≤ r ∧ r < start + n then (match vals[r - start]? with | some v => v | none => g.cell r c)
      else g.cell r c }
  else
    match vals with
    | [v] =>
      if broadcast then
        .ok { g with cell := fun r c => if c = col ∧ start ≤ r ∧ r < start + n then v else g.cell r c }
      else .error .value
    | _ => .error .value

/-- `n_match`, write_cxi.py:100-104. -/
def nMatch (chunkTids targetTids : List Nat) : Nat :=
  (nonzero (List.zipWith (fun a b => decide (a ≠ b)) chunkTids targetTids)).headD chunkTids.length

/-- The loop of `_map_chunk`, write_cxi.py:91-117; the first argument bounds the number of rounds. `start` is
`chunk_match_start`, `data` is `chunk_data`. -/
def mapLoop (ix : Dict Nat Nat) (perFrame : List Nat) (broadcast : Bool) (data : List W) (col : Nat) :
    Nat → Nat → List Nat → Grid W → R (Grid W)
  | _, _, [], g => .ok g
  | 0, _, _ :: _, _ => .error .noReturn
  | fuel + 1, start, t :: ts, g =>
    match ix.get? t with
    | none => .error .key
    | some tgt =>
      let target := sl perFrame tgt (tgt + (t :: ts).length)
      if target.length ≠ (t :: ts).length then .error .assertion
      else if target.head? ≠ some t then .error .assertion
      else
        let n := nMatch (t :: ts) target
        match g.assign broadcast tgt n col (sl data start (start + n)) with
        | .error e => .error e
        | .ok g' => mapLoop ix perFrame broadcast data col fuel (start + n) ((t :: ts).drop n) g'

/-- `_map_chunk(chunk, chunk_data, target, tgt_ax1)`, write_cxi.py:79-117. `have_data` is only used for a log message and
left out. -/
def mapChunk (d : Det V) (broadcast : Bool) (col : Nat) (ch : Chunk V) (data : List W) (g : Grid W) : R (Grid W) :=
  match npRepeatE ch.trainIds ch.counts with
  | .error e => .error e
  | .ok tids => mapLoop d.trainIdToIx d.tidsPerFrame broadcast data col tids.length ch.first tids g

/-- Mapping the chunks of one source, write_cxi.py:59-65 and 156-158. `conv` gives the data of a chunk; when it cannot
(entries of another size in a virtual dataset) this is noticed when frames are mapped, and chunks without frames pass. -/
def mapSource (d : Det V) (broadcast : Bool) (key : Str) (conv : Dataset V → R (List W)) (g : Grid W) (x : Str × Nat) :
    R (Grid W) :=
  match d.data.findDataChunks x.1 key with
  | .error e => .error e
  | .ok chunks => foldE (fun g ch =>
      match ch.dataset with
      | .error e => .error e
      | .ok ds =>
        match conv ds with
        | .error e =>
          match npRepeatE ch.trainIds ch.counts with
          | .ok [] => .ok g
          | _ => .error e
        | .ok data => mapChunk d broadcast x.2 ch data g) g chunks

/-- `NO_PULSE_ID`, write_cxi.py:54. -/
def noPulseId : Nat := 9999

/-- The cells of a row. -/
def Grid.row (g : Grid W) (r : Nat) : List W := (List.range g.cols).map (g.cell r)

/-- The smallest number; the rows have `nModules` cells, so the case of an empty list does not occur. -/
def minOf : List Nat → Nat
  | [] => 0
  | a :: l => l.foldl min a

/-- `collect_pulse_ids()`, write_cxi.py:52-77. `num` gives the number stored in an entry of the pulse ID dataset. -/
def Det.collectPulseIds (d : Det V) (num : V → Nat) : R (List Nat) :=
  match foldE (mapSource d true (ch! "image.pulseId") (fun ds => .ok (ds.rows.map num)))
      ⟨d.nframes, nModules, fun _ _ => noPulseId⟩ d.sourceToModno with
  | .error e => .error e
  | .ok g =>
    let mins := (List.range g.rows).map (fun r => minOf (g.row r))
    let maxs := (List.range g.rows).map (fun r => ((g.row r).map (fun p => if p = noPulseId then 0 else p)).foldl max 0)
    if mins.any (fun p => p == noPulseId) then .error .generic
    else if mins ≠ maxs then .error .generic
    else .ok mins

/-- One of the layouts, write_cxi.py:151-158: virtual data of the given entry shape. `none` is the fill value. HDF5 wants
the same number of elements in the source and in the layout. -/
def Det.collectLayout (d : Det V) (name : Str) (rowShape : List Nat) : R (Grid (Option V)) :=
  foldE (mapSource d false (ch! "image." ++ name)
      (fun ds => if ds.rowShape.prod = rowShape.prod then .ok (ds.rows.map some) else .error .value))
    ⟨d.nframes, nModules, fun _ _ => none⟩ d.sourceToModno

/-- The layouts to make: name and shape of an entry, write_cxi.py:126-149. `f` is the first file of the first source. -/
def layoutShapes (f : FileAccess V) (source : Str) (moduleShape : List Nat) : R (List (Str × List Nat)) :=
  let has (name : Str) : R (Dataset V) := f.dataset ch! "INSTRUMENT" source (ch! "image." ++ name)
  match has (ch! "gain"), has (ch! "data"), has (ch! "mask"), has (ch! "cellId") with
  | .ok _, .ok _, .ok _, .ok _ =>
    .ok [(ch! "data", moduleShape), (ch! "gain", moduleShape), (ch! "mask", moduleShape), (ch! "cellId", [])]
  | .ok _, .ok _, .error _, .ok _ => .ok [(ch! "data", moduleShape), (ch! "gain", moduleShape), (ch! "cellId", [])]
  | .error _, .ok ds, _, .ok _ => .ok [(ch! "data", ds.rowShape), (ch! "cellId", [])]
  | _, _, _, _ => .error .key

/-- A layout with its name and the shape of an entry. -/
structure Layout (V : Type) where
  name : Str
  rowShape : List Nat
  grid : Grid (Option V)

/-- One layout of `collect_data`, write_cxi.py:151-158. -/
def Det.layout (d : Det V) (x : Str × List Nat) : R (Layout V) :=
  match d.collectLayout x.1 x.2 with
  | .error e => .error e
  | .ok g => .ok ⟨x.1, x.2, g⟩

/-- `collect_data()`, write_cxi.py:119-164. -/
def Det.collectData (d : Det V) (moduleShape : List Nat) : R (List (Layout V)) :=
  match d.sourceToModno with
  | [] => .error .stopIteration
  | (source, _) :: _ =>
    match d.data.sourceIndex source with
    | [] => .error .index
    | f :: _ =>
      match layoutShapes f source moduleShape with
      | .error e => .error e
      | .ok shapes => mapE d.layout shapes

/-- `entry_1/data_gain`, write_cxi.py:191-199, for the shape of one entry of the data; `none`: not written. -/
def dataGain (rowShape : List Nat) : R (Option (List Str)) :=
  if rowShape.length = 2 then .ok none
  else
    match rowShape with
    | [] => .error .index
    | 2 :: _ => .ok (some [ch! "data", ch! "gain"])
    | n :: _ => .ok (some (List.replicate n (ch! "data")))

/-- The contents of a CXI file: `experiment_identifier`, `pulseId`, `trainId`, `data_gain`, `module_identifier`, and the
virtual datasets by name. -/
structure Cxi (V : Type) where
  experimentIds : List Str
  pulseIds : List Nat
  trainIds : List Nat
  dataGain : Option (List Str)
  layouts : List (Layout V)
  modules : List Nat

/-- `write(filename)`, write_cxi.py:166-225: the contents of the file. Version, soft links and axes are in Model/CxiTree.lean. -/
def Det.writeVirtualCxi (d : Det V) (num : V → Nat) (moduleShape : List Nat) : R (Cxi V) :=
  match d.collectPulseIds num with
  | .error e => .error e
  | .ok pulseIds =>
    match d.collectData moduleShape with
    | .error e => .error e
    | .ok layouts =>
      match layouts with
      | [] => .error .key
      | l :: _ =>
        match dataGain l.rowShape with
        | .error e => .error e
        | .ok dg =>
          .ok ⟨List.zipWith (fun t p => natStr t ++ ch! ":" ++ natStr p) d.tidsPerFrame pulseIds, pulseIds, d.tidsPerFrame, dg,
            layouts, (invertDict d.sourceToModno).keys.insertionSort (· ≤ ·)⟩

end KD

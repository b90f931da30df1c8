/-
Model of how the file of `write_virtual_cxi` comes into being on disk, /repo/karabo_data/write_cxi.py:119-225: what is
collected before the target is opened, what the file holds after each step, and what happens to the other files.
-/
import Verif.Model.Cxi

namespace KD

variable {V : Type}

/-- One mapping in `layout.sources`, made by `target[tgt_start : tgt_start+n_match, tgt_ax1] = matched`,
write_cxi.py:106-109: rows and column of the layout, the entries of the source, and whether they have as many elements as
those of the layout. Nothing is checked now, except that the column exists. -/
structure VMap (V : Type) where
  start : Nat
  n : Nat
  col : Nat
  vals : List V
  fits : Bool

/-- The loop of `_map_chunk`, write_cxi.py:91-117, for a virtual layout; the first argument bounds the number of rounds. -/
def planLoop (ix : Dict Nat Nat) (perFrame : List Nat) (data : List V) (fits : Bool) (col : Nat) :
    Nat → Nat → List Nat → R (List (VMap V))
  | _, _, [] => .ok []
  | 0, _, _ :: _ => .error .noReturn
  | fuel + 1, start, t :: ts =>
    match ix.get? t with
    | none => .error .key
    | some tgt =>
      let target := sl perFrame tgt (tgt + (t :: ts).length)
      if target.length ≠ (t :: ts).length then .error .assertion
      else if target.head? ≠ some t then .error .assertion
      else if nModules ≤ col then .error .index
      else
        let n := nMatch (t :: ts) target
        match planLoop ix perFrame data fits col fuel (start + n) ((t :: ts).drop n) with
        | .error e => .error e
        | .ok ms => .ok (⟨tgt, n, col, sl data start (start + n), fits⟩ :: ms)

/-- One chunk: `VirtualSource(chunk.dataset)` and `_map_chunk`, write_cxi.py:157-158, 79-89. -/
def planChunk (d : Det V) (rowShape : List Nat) (col : Nat) (ch : Chunk V) : R (List (VMap V)) :=
  match ch.dataset with
  | .error e => .error e
  | .ok ds =>
    match npRepeatE ch.trainIds ch.counts with
    | .error e => .error e
    | .ok tids =>
      planLoop d.trainIdToIx d.tidsPerFrame ds.rows (decide (ds.rowShape.prod = rowShape.prod)) col tids.length ch.first tids

/-- The chunks of one source, write_cxi.py:155-158. -/
def planSource (d : Det V) (key : Str) (rowShape : List Nat) (x : Str × Nat) : R (List (VMap V)) :=
  match d.data.findDataChunks x.1 key with
  | .error e => .error e
  | .ok chunks =>
    match mapE (planChunk d rowShape x.2) chunks with
    | .error e => .error e
    | .ok l => .ok l.flatten

/-- A virtual layout before it is written: name, shape of an entry, mappings. -/
structure Plan (V : Type) where
  name : Str
  rowShape : List Nat
  maps : List (VMap V)

/-- One of the layouts, write_cxi.py:151-158. -/
def Det.plan (d : Det V) (x : Str × List Nat) : R (Plan V) :=
  match mapE (planSource d (ch! "image." ++ x.1) x.2) d.sourceToModno with
  | .error e => .error e
  | .ok l => .ok ⟨x.1, x.2, l.flatten⟩

/-- `collect_data()`, write_cxi.py:119-164. -/
def Det.planData (d : Det V) (moduleShape : List Nat) : R (List (Plan V)) :=
  match d.sourceToModno with
  | [] => .error .stopIteration
  | (source, _) :: _ =>
    match d.data.sourceIndex source with
    | [] => .error .index
    | f :: _ =>
      match layoutShapes f source moduleShape with
      | .error e => .error e
      | .ok shapes => mapE d.plan shapes

/-- HDF5 takes one mapping when the dataset is created, write_cxi.py:186, 202, 208, 214: source and target must have the
same size. Simplification: the number of entries and the size of an entry are compared, HDF5 compares their product. -/
def VMap.apply (g : Grid (Option V)) (m : VMap V) : R (Grid (Option V)) :=
  if m.fits then g.assign false m.start m.n m.col (m.vals.map some) else .error .value

/-- `create_virtual_dataset`, write_cxi.py:186, 202, 208, 214. -/
def Det.realise (d : Det V) (p : Plan V) : R (Layout V) :=
  match foldE VMap.apply ⟨d.nframes, nModules, fun _ _ => none⟩ p.maps with
  | .error e => .error e
  | .ok g => .ok ⟨p.name, p.rowShape, g⟩

/-! ### The file, step by step -/

/-- A CXI file, complete or not: `cxi_version` and the datasets of Model/Cxi.lean. Left out: soft links and axes (those are in Model/CxiTree.lean). -/
structure CxiFile (V : Type) where
  version : Bool
  experimentIds : Option (List Str)
  pulseIds : Option (List Nat)
  trainIds : Option (List Nat)
  dataGain : Option (List Str)
  layouts : List (Layout V)
  modules : Option (List Nat)

/-- A new file: `h5py.File(filename, 'w')`, write_cxi.py:175. -/
def CxiFile.blank : CxiFile V := ⟨false, none, none, none, none, [], none⟩

/-- Steps one after the other: what the file holds after each of them, and the exception of the first which fails. -/
def runSteps : CxiFile V → List (CxiFile V → R (CxiFile V)) → List (CxiFile V) × R Unit
  | x, [] => ([x], .ok ())
  | x, a :: as =>
    match a x with
    | .error e => ([x], .error e)
    | .ok y => (x :: (runSteps y as).1, (runSteps y as).2)

/-- A virtual dataset is made, write_cxi.py:186, 202, 208, 214. -/
def addLayout (d : Det V) (p : Plan V) (x : CxiFile V) : R (CxiFile V) :=
  match d.realise p with
  | .error e => .error e
  | .ok l => .ok { x with layouts := x.layouts ++ [l] }

/-- `data_gain` is made with empty names, write_cxi.py:191-198, from the shape of the layout called data. -/
def makeDataGain (plans : List (Plan V)) (x : CxiFile V) : R (CxiFile V) :=
  match plans with
  | [] => .error .key
  | p :: _ =>
    match dataGain p.rowShape with
    | .error e => .error e
    | .ok none => .ok x
    | .ok (some l) => .ok { x with dataGain := some (l.map (fun _ => [])) }

/-- `data_gain` is filled, write_cxi.py:199. -/
def fillDataGain (plans : List (Plan V)) (x : CxiFile V) : R (CxiFile V) :=
  match plans with
  | [] => .error .key
  | p :: _ =>
    match dataGain p.rowShape with
    | .error e => .error e
    | .ok none => .ok x
    | .ok (some l) => .ok { x with dataGain := some l }

/-- The layout called cellId, which is written first, write_cxi.py:186-187. -/
def cellPlans (plans : List (Plan V)) : List (Plan V) := plans.filter (fun p => p.name == ch! "cellId")

/-- The layouts written after it: data, gain and mask, write_cxi.py:202-217. -/
def imagePlans (plans : List (Plan V)) : List (Plan V) := plans.filter (fun p => p.name != ch! "cellId")

/-- The steps of `write` once the file is open, write_cxi.py:176-223, in order. -/
def Det.cxiActions (d : Det V) (pulseIds : List Nat) (plans : List (Plan V)) : List (CxiFile V → R (CxiFile V)) :=
  [fun x => .ok { x with version := true },
   fun x => .ok { x with experimentIds := some (pulseIds.map (fun _ => [])) },
   fun x => .ok { x with experimentIds := some (List.zipWith (fun t p => natStr t ++ ch! ":" ++ natStr p) d.tidsPerFrame pulseIds) },
   fun x => .ok { x with pulseIds := some pulseIds },
   fun x => .ok { x with trainIds := some d.tidsPerFrame }] ++
  (cellPlans plans).map (addLayout d) ++
  [makeDataGain plans, fillDataGain plans] ++
  (imagePlans plans).map (addLayout d) ++
  [fun x => .ok { x with modules := some ((invertDict d.sourceToModno).keys.insertionSort (· ≤ ·)) }]

/-! ### The disk -/

/-- A file on disk: one of a run, or a CXI file. -/
inductive AnyFile (V : Type) where
  | run (h : H5File V)
  | cxi (x : CxiFile V)

/-- The files on disk by name, those which this process has open, and those which it may create or overwrite.
Simplification: a file has one name, and other processes have none of them open. -/
structure CxiStore (V : Type) where
  disk : Str → Option (AnyFile V)
  opened : List Str
  mayWrite : Str → Bool

/-- A file written on disk. -/
def CxiStore.put (s : CxiStore V) (name : Str) (x : CxiFile V) : CxiStore V :=
  { s with disk := fun n => if n = name then some (.cxi x) else s.disk n }

/-- The files opened by collecting the pulse IDs, write_cxi.py:59-62 (`chunk.dataset` of each chunk; each file gives a
chunk, reader.py:1011-1033): they stay open. -/
def Det.cxiOpens (d : Det V) : List Str :=
  (d.sourceToModno.flatMap (fun x => d.data.sourceIndex x.1)).map (fun f => f.filename)

/-- `write(filename)`, write_cxi.py:166-225: what is on disk after each step, and the result. Opening the target to write it
fails when the process has it open already, or may not write it. Simplification: which files are open is told only
from when all pulse IDs are collected. -/
def CxiStore.writeCxi (s : CxiStore V) (d : Det V) (num : V → Nat) (moduleShape : List Nat) (name : Str) :
    List (CxiStore V) × R Unit :=
  match d.collectPulseIds num with
  | .error e => ([s], .error e)
  | .ok pulseIds =>
    match d.planData moduleShape with
    | .error e => ([s], .error e)
    | .ok plans =>
      let s' : CxiStore V := { s with opened := s.opened ++ d.cxiOpens }
      if name ∈ s'.opened ∨ s'.mayWrite name = false then ([s'], .error .os)
      else
        ((runSteps CxiFile.blank (d.cxiActions pulseIds plans)).1.map (s'.put name),
         (runSteps CxiFile.blank (d.cxiActions pulseIds plans)).2)

end KD

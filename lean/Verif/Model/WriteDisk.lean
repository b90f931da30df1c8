/-
Model of how the file written by `write`, `write_virtual` and `get_virtual_dataset` comes into being on disk,
/repo/karabo_data/writer.py:12-109 and reader.py:1154-1227: what it holds after each step (wherever the call is
interrupted), and what happens to the other files, also when the target is a file of the collection.
-/
import Verif.Model.Writer

namespace KD

variable {V : Type}

/-- A new file: `h5py.File(path, 'w')`, writer.py:13. -/
def H5File.blank : H5File V := ⟨none, none, none, none, [], [], []⟩

/-- The file while datasets are added, writer.py:97-105: train IDs (61-63) and the datasets so far. -/
def WState.soFar (w : WState V) (trainIds : List Nat) : H5File V :=
  ⟨some trainIds, none, none, none, [], [], w.datasets⟩

/-- The file after each dataset of one source, writer.py:99-105: `mk` makes the dataset, `add` also collects the
index in memory. A dataset whose index cannot be made stays in the file. -/
def keySteps (mk add : WState V → Str → Str → R (WState V)) (source : Str) : WState V → List Str → List (WState V)
  | _, [] => []
  | w, key :: keys =>
    match mk w source key with
    | .error _ => []
    | .ok made =>
      made ::
        match add w source key with
        | .error _ => []
        | .ok w => keySteps mk add source w keys

/-- The file after each dataset of several sources, writer.py:99-105. -/
def sourceSteps (c : DC V) (mk add : WState V → Str → Str → R (WState V)) : WState V → List Str → List (WState V)
  | _, [] => []
  | w, source :: sources =>
    match c.keysForSource source with
    | .error _ => []
    | .ok keys =>
      keySteps mk add source w keys ++
        match foldE (fun w key => add w source key) w keys with
        | .error _ => []
        | .ok w => sourceSteps c mk add w sources

/-- The groups below INDEX/ after each dataset made by `write_indexes`, writer.py:65-68: `first`, then `count`.
Simplification: nothing is made of a group whose names cannot be created. -/
def indexSteps : Dict Path IndexGroup → List (Str × (List Nat × List Nat)) → List (Dict Path IndexGroup)
  | _, [] => []
  | index, x :: l =>
    match writeIndexGroup index x with
    | .error _ => []
    | .ok index' =>
      (index ++ [(h5path (ch! "INDEX/" ++ x.1), ⟨some (x.2.1.map (BitVec.ofNat 64)), none, none, none⟩)]) ::
        index' :: indexSteps index' l

/-- The file after each step of `write_indexes` and `write_metadata`, writer.py:107-108: the dataset dataSourceId is
made with empty names (75-77) and then filled (78). The datasets made after it (80-93) are never read by this package. -/
def finishSteps (trainIds : List Nat) (w : WState V) : List (H5File V) :=
  (indexSteps [] w.indexes).map (fun index => ⟨some trainIds, none, none, none, index, [], w.datasets⟩) ++
    match foldE writeIndexGroup [] w.indexes with
    | .error _ => []
    | .ok index =>
      [⟨some trainIds, none, some (w.sources.map (fun _ => [])), none, index, [], w.datasets⟩,
       ⟨some trainIds, none, some (sortStrs w.sources), none, index, [], w.datasets⟩]

/-- Everything the file holds from its creation to the end of `FileWriter.write`, writer.py:12-16, 95-109, in order; the
list ends where an exception is raised. -/
def writeSteps (c : DC V) (mkC mkI addC addI : WState V → Str → Str → R (WState V)) : List (H5File V) :=
  H5File.blank :: WState.new.soFar c.trainIds ::
    ((sourceSteps c mkC addC WState.new c.controlSources).map (fun w => w.soFar c.trainIds) ++
      match foldE (writeSource c addC) WState.new c.controlSources with
      | .error _ => []
      | .ok w =>
        (sourceSteps c mkI addI w c.instrumentSources).map (fun w => w.soFar c.trainIds) ++
          match foldE (writeSource c addI) w c.instrumentSources with
          | .error _ => []
          | .ok w => finishSteps c.trainIds w)

/-- The dataset made by `add_control_dataset` and `add_instrument_dataset`, writer.py:18-22 and 39-42. -/
def makeDataset (c : DC V) (sec : Str) (w : WState V) (source key : Str) : R (WState V) :=
  match c.getArray source key id with
  | .error e => .error e
  | .ok a =>
    if sec = ch! "CONTROL" ∧ a.rows.length ≠ c.trainIds.length then .error .assertion
    else w.create (dataPath sec source key) ⟨a.rows, a.rowShape, a.dtype⟩

/-- The virtual dataset made by the two methods of `VirtualFileWriter`, writer.py:158-164 and 169-175. -/
def makeVirtual (c : DC V) (sec : Str) (w : WState V) (source key : Str) : R (WState V) :=
  match assembleData c source key with
  | .error e => .error e
  | .ok none => .ok w
  | .ok (some (ds, _)) => w.create (dataPath sec source key) ds

/-- The two methods which write a file. -/
inductive WriteKind where
  | copy
  | virtual
  deriving DecidableEq, Repr

/-- The content of the file written by `write(filename)`, reader.py:1154-1164, or `write_virtual(filename)`, 1166-1183. -/
def DC.writeAs (c : DC V) : WriteKind → R (H5File V)
  | .copy => c.write
  | .virtual => c.writeVirtual

/-- The steps of `write`, reader.py:1154-1164, and of `write_virtual`, reader.py:1166-1183. -/
def DC.writeSteps (c : DC V) : WriteKind → List (H5File V)
  | .copy => KD.writeSteps c (makeDataset c ch! "CONTROL") (makeDataset c ch! "INSTRUMENT") (addControl c) (addInstrument c)
  | .virtual => KD.writeSteps c (makeVirtual c ch! "CONTROL") (makeVirtual c ch! "INSTRUMENT")
    (fun w s k => dropPath (vAddControl c w s k)) (fun w s k => dropPath (vAddInstrument c w s k))

/-! ### The disk -/

/-- The files on disk by name, those which this process has open, and those which it may create or overwrite.
Simplification: a file has one name (no links, no relative names), and other processes have none of them open. -/
structure Store (V : Type) where
  disk : Str → Option (H5File V)
  opened : List Str
  mayWrite : Str → Bool

/-- A file written on disk. -/
def Store.put (s : Store V) (name : Str) (h : H5File V) : Store V :=
  { s with disk := fun n => if n = name then some h else s.disk n }

/-- What a `FileAccess` finds in its file, reader.py:96-100: an open file is used, others are opened now.
Simplifications: a missing file is like an empty one (both raise an exception when read, of different types), and what
the object has read before (its caches) is read again. -/
def FileAccess.reread (s : Store V) (f : FileAccess V) : FileAccess V :=
  if f.filename ∈ s.opened then f
  else { f with file := match s.disk f.filename with
    | some h => h
    | none => H5File.blank }

/-- The collection as it reads its files from disk now. -/
def DC.reread (s : Store V) (c : DC V) : DC V := { c with files := c.files.map (FileAccess.reread s) }

/-- What is on disk after each step of writing to a file, reader.py:1163-1164, 1182-1183: `h5py.File(path, 'w')`
(writer.py:13) fails when the process has the file open already, or may not write it; otherwise the file is emptied
before anything is read. Simplification: while it writes, the collection sees the target (if it is one of its files) as it
was when just emptied. -/
def Store.writeDisks (s : Store V) (kind : WriteKind) (c : DC V) (name : Str) : List (Store V) :=
  if name ∈ s.opened ∨ s.mayWrite name = false then [s]
  else ((c.reread (s.put name H5File.blank)).writeSteps kind).map (s.put name)

/-- Whether the call succeeds, reader.py:1154-1183. -/
def Store.writeResult (s : Store V) (kind : WriteKind) (c : DC V) (name : Str) : R Unit :=
  if name ∈ s.opened ∨ s.mayWrite name = false then .error .os
  else
    match (c.reread (s.put name H5File.blank)).writeAs kind with
    | .error e => .error e
    | .ok _ => .ok ()

end KD

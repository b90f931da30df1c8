/-
Any number of processes opening the same run directory through the files map (/repo/karabo_data/run_files_map.py and
`RunDirectory`, /repo/karabo_data/reader.py:1317-1348) while the data files and the cache files change: a state machine
whose steps are the single accesses to the file system.
-/
import Verif.Model.FilesMap

namespace KD

variable {V : Type}

/-- One file opened by a process: its name, the object, and the inode which its file handle refers to (none if it comes
from the cache and is not open). -/
structure Opened (V : Type) where
  fname : Str
  file : FileAccess V
  handle : Option Nat
  deriving DecidableEq, Repr

/-- Where a process is inside `RunDirectory`: about to open a possible cache file (run_files_map.py:84-93), checking the
loaded entries (95-102), opening files (reader.py:258-267), building the new entries (run_files_map.py:136-162), trying
to write (167-178). -/
inductive Phase where
  | idle
  | loading (pos : Nat)
  | checking (rest : List MapInfo) (d : Dict Str MapInfo)
  | opening (rest : List Str) (d : Dict Str MapInfo)
  | saving (pos : Nat) (d : Dict Str MapInfo) (needSave : Bool)
  | writing (pos : Nat) (doc : List MapInfo)
  | finished
  | failed (e : PyErr)
  | crashed
  deriving DecidableEq, Repr

/-- A process: the file names it found in the directory, and the files it has opened so far. -/
structure Proc (V : Type) where
  phase : Phase
  names : List Str
  opened : List (Opened V)
  deriving DecidableEq, Repr

/-- The directory (names to inodes), the inodes, the next free one, the possible cache files and the processes. -/
structure World (V : Type) where
  names : Str → Option Nat
  inodes : Nat → DiskFile V
  nextIno : Nat
  caches : Nat → CacheFile
  procs : Nat → Proc V

/-- What can happen. `replace`, `remove` and `modify` change a data file: the first puts a new file in its place, the
last changes the content of the existing one. `putCache` changes a cache file from outside. `act p byName outcome` is the
next step of process p: `byName` says that the handle of the open file could not be had (run_files_map.py:148-151), and
`outcome` is the outcome of those steps which may fail for reasons outside the model: making the collection
(reader.py:269-272) and writing the cache (run_files_map.py:169-170). -/
inductive Event (V : Type) where
  | replace (name : Str) (file : DiskFile V)
  | remove (name : Str)
  | modify (name : Str) (file : DiskFile V)
  | putCache (pos : Nat) (c : CacheFile)
  | begin (p : Nat) (names : List Str)
  | act (p : Nat) (byName : Bool) (outcome : R Unit)
  | crash (p : Nat)
  deriving DecidableEq, Repr

/-- The file of this name now. -/
def World.fileAt (w : World V) (name : Str) : Option (DiskFile V) := (w.names name).map w.inodes

/-- `os.stat` of a name. -/
def World.statAt (w : World V) (name : Str) : Option Stat := (w.fileAt name).map DiskFile.stat

/-- What `os.stat` gives in `save`, run_files_map.py:146-153: of the handle or, failing that, of the name. -/
def World.saveStat (w : World V) (f : Opened V) (byName : Bool) : R Stat :=
  match f.handle, byName with
  | some ino, false => .ok (w.inodes ino).stat
  | _, _ =>
    match w.statAt f.fname with
    | some st => .ok st
    | none => .error .fileNotFound

/-- The description which a `FileAccess` object shows. -/
def FileAccess.info (f : FileAccess V) : CacheInfo := ⟨f.trainIds, f.controlSources, f.instrumentSources⟩

/-- One file opened in `from_paths`, reader.py:258-267: from the cache or by reading; files which cannot be opened are
left out. -/
def World.openOne (w : World V) (name : Str) (ci : Option CacheInfo) : List (Opened V) :=
  match openFile w.fileAt name name ci with
  | .error _ => []
  | .ok f => [⟨name, f, match ci with | some _ => none | none => w.names name⟩]

/-- One step of a process, with `ncand` possible cache files: its new state, and a document written. -/
def World.procStep (w : World V) (ncand : Nat) (q : Proc V) (byName : Bool) (outcome : R Unit) :
    Proc V × Option (Nat × List MapInfo) :=
  match q.phase with
  | .loading pos =>
    if pos < ncand then
      match w.caches pos with
      | .missing => ({ q with phase := .loading (pos + 1) }, none)
      | .garbled => ({ q with phase := .loading (pos + 1) }, none)
      | .unreadable e => ({ q with phase := .failed e }, none)
      | .document infos => ({ q with phase := .checking infos [] }, none)
    else ({ q with phase := .checking [] [] }, none)
  | .checking [] d => ({ q with phase := .opening q.names d }, none)
  | .checking (info :: rest) d =>
    match loadEntry w.statAt d info with
    | .error e => ({ q with phase := .failed e }, none)
    | .ok d' => ({ q with phase := .checking rest d' }, none)
  | .opening [] d =>
    match outcome with
    | .error e => ({ q with phase := .failed e }, none)
    | .ok () => ({ q with phase := .saving 0 d false }, none)
  | .opening (name :: rest) d =>
    match getInfo d true name with
    | .error e => ({ q with phase := .failed e }, none)
    | .ok ci => ({ q with phase := .opening rest d, opened := q.opened ++ w.openOne name ci }, none)
  | .saving pos d needSave =>
    match q.opened[pos]? with
    | some f =>
      match saveEntry (d, needSave) ⟨true, f.fname, w.saveStat f byName, f.file.info⟩ with
      | .error e => ({ q with phase := .failed e }, none)
      | .ok (d', n') => ({ q with phase := .saving (pos + 1) d' n' }, none)
    | none => if needSave then ({ q with phase := .writing 0 (saveDoc d) }, none) else ({ q with phase := .finished }, none)
  | .writing pos doc =>
    if pos < ncand then
      match outcome with
      | .ok () => ({ q with phase := .finished }, some (pos, doc))
      | .error .permission => ({ q with phase := .writing (pos + 1) doc }, none)
      | .error e => ({ q with phase := .failed e }, none)
    else ({ q with phase := .finished }, none)
  | _ => (q, none)

/-- One event. Those which are not possible change nothing. Writing a cache file is one step (`AtomicDump` shows why it
may be). -/
def World.step (ncand : Nat) (w : World V) : Event V → World V
  | .replace name file =>
    { w with names := fun n => if n = name then some w.nextIno else w.names n,
             inodes := fun i => if i = w.nextIno then file else w.inodes i, nextIno := w.nextIno + 1 }
  | .remove name => { w with names := fun n => if n = name then none else w.names n }
  | .modify name file =>
    match w.names name with
    | none => w
    | some ino => { w with inodes := fun i => if i = ino then file else w.inodes i }
  | .putCache pos c => { w with caches := fun i => if i = pos then c else w.caches i }
  | .begin p names =>
    if (w.procs p).phase = .idle then
      { w with procs := fun i => if i = p then ⟨.loading 0, names, []⟩ else w.procs i }
    else w
  | .act p byName outcome =>
    let r := w.procStep ncand (w.procs p) byName outcome
    { w with
      procs := fun i => if i = p then r.1 else w.procs i
      caches := fun i =>
        match r.2 with
        | some (pos, doc) => if i = pos then .document doc else w.caches i
        | none => w.caches i }
  | .crash p => { w with procs := fun i => if i = p then { w.procs p with phase := .crashed } else w.procs i }

/-- A history. -/
def World.run (ncand : Nat) (w : World V) (events : List (Event V)) : World V := events.foldl (World.step ncand) w

end KD

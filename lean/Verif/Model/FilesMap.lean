/-
Model of `RunFilesMap`, /repo/karabo_data/run_files_map.py, and of `RunDirectory` (/repo/karabo_data/reader.py:1317-1348)
which uses it: the JSON file which caches the train IDs and sources of the files in a run directory.
-/
import Verif.Model.Collection
import Verif.Model.Glob
import Verif.Model.Writer

namespace KD

variable {V : Type}

/-- `os.stat(path)`: the modification time and the size. Simplification: the time is a natural number; the JSON file
gives back floating point numbers unchanged. -/
structure Stat where
  mtime : Nat
  size : Nat
  deriving DecidableEq, Repr

/-- One entry of the JSON document, run_files_map.py:155-162; each key may be missing. Simplification: values always
have the right type. -/
structure MapInfo where
  filename : Option Str
  mtime : Option Nat
  size : Option Nat
  trainIds : Option (List Nat)
  controlSources : Option (List Str)
  instrumentSources : Option (List Str)
  deriving DecidableEq, Repr

/-- What opening and parsing one of the possible cache files gives: no such file, not a JSON document, another
exception, or a document. -/
inductive CacheFile where
  | missing
  | garbled
  | unreadable (e : PyErr)
  | document (infos : List MapInfo)
  deriving DecidableEq, Repr

/-! ### Where the cache may be -/

/-- A string of one or more characters in a class: regular expressions `\w+` and `\d+`. -/
def someOf (cls : Char → Bool) (s : Str) : Bool := !s.isEmpty && s.all cls

/-- The components after the last slashes, reversed; one '/' and one newline may follow at the end (`/?$`). -/
def endComponents (s : Str) : List Str :=
  let t := if endsWith s ['\n'] then s.dropLast else s
  let t := if endsWith t ['/'] then t.dropLast else t
  (splitCh '/' t).reverse

/-- `re.match(r'.+/(raw|proc)/(\w+)/(\w+)/(p\d+)/(r\d+)/?$', s)`, run_files_map.py:59-63, giving the groups.
`word` and `digit` are the classes `\w` and `\d`. None of the groups can contain a '/', so they are the last components;
what comes before is `.+`, not empty and without newlines. -/
def matchRunPath (word digit : Char → Bool) (s : Str) : Option (Str × Str × Str × Str × Str) :=
  match endComponents s with
  | run :: prop :: cycle :: instr :: rawProc :: before =>
    let pre := joinCh '/' before.reverse
    if (rawProc = ch! "raw" ∨ rawProc = ch! "proc") ∧ someOf word instr ∧ someOf word cycle ∧
        (startsWith prop ['p'] ∧ someOf digit (prop.drop 1)) ∧ (startsWith run ['r'] ∧ someOf digit (run.drop 1)) ∧
        pre ≠ [] ∧ '\n' ∉ pre
    then some (rawProc, instr, cycle, prop, run) else none
  | _ => none

/-- `osp.join(a, b)` for a relative path b. -/
def pathJoin (a b : Str) : Str := if a.isEmpty || endsWith a ['/'] then a ++ b else a ++ '/' :: b

/-- `map_paths_for_run(directory)`, run_files_map.py:54-74, with the result of `os.path.realpath(directory)` and the
test `osp.isdir`. -/
def mapPathsForRun (word digit : Char → Bool) (isdir : Str → Bool) (directory realpath : Str) : List Str :=
  let first := pathJoin directory (ch! "karabo_data_map.json")
  match matchRunPath word digit realpath with
  | none => [first]
  | some (rawProc, instr, cycle, prop, run) =>
    let scratch := pathJoin (pathJoin (pathJoin (pathJoin (ch! "/gpfs/exfel/exp/") instr) cycle) prop) (ch! "scratch")
    if isdir scratch then
      [first, pathJoin (pathJoin scratch (ch! ".karabo_data_maps")) (rawProc ++ ch! "_" ++ run ++ ch! ".json")]
    else [first]

/-! ### Loading -/

/-- The loop over the possible files in `load`, run_files_map.py:84-93: the entries and the position of the file they
come from. Only FileNotFoundError and JSONDecodeError are caught. -/
def loadCandidates (pos : Nat) : List CacheFile → R (List MapInfo × Option Nat)
  | [] => .ok ([], none)
  | .document infos :: _ => .ok (infos, some pos)
  | .unreadable e :: _ => .error e
  | _ :: rest => loadCandidates (pos + 1) rest

/-- One step of the loop over the entries in `load`, run_files_map.py:95-102. `stat` gives the files of the directory;
an OSError is caught. -/
def loadEntry (stat : Str → Option Stat) (d : Dict Str MapInfo) (info : MapInfo) : R (Dict Str MapInfo) :=
  match info.filename with
  | none => .error .key
  | some filename =>
    match stat filename with
    | none => .ok d
    | some st =>
      match info.mtime with
      | none => .error .key
      | some mtime =>
        if st.mtime = mtime then
          match info.size with
          | none => .error .key
          | some size => if st.size = size then .ok (d.set filename info) else .ok d
        else .ok d

/-- `RunFilesMap` after `load`: `files_data` and `cache_file` (as a position), run_files_map.py:45-52, 76-106. -/
structure FilesMap where
  filesData : Dict Str MapInfo
  cacheFile : Option Nat
  deriving DecidableEq, Repr

/-- `load()`, run_files_map.py:76-106. -/
def FilesMap.load (candidates : List CacheFile) (stat : Str → Option Stat) : R FilesMap :=
  match loadCandidates 0 candidates with
  | .error e => .error e
  | .ok (infos, cacheFile) =>
    match foldE (loadEntry stat) [] infos with
    | .error e => .error e
    | .ok d => .ok ⟨d, cacheFile⟩

/-- The dictionary returned by `get`, run_files_map.py:118-123. -/
def infoOf (info : MapInfo) : R CacheInfo :=
  match info.trainIds, info.controlSources, info.instrumentSources with
  | some t, some c, some i => .ok ⟨t, c.dedup, i.dedup⟩
  | _, _, _ => .error .key

/-- `get(path)`, run_files_map.py:111-125: `mine` is the result of `is_my_directory` for the directory of the path,
`fname` its last component. -/
def getInfo (d : Dict Str MapInfo) (mine : Bool) (fname : Str) : R (Option CacheInfo) :=
  if mine then
    match d.get? fname with
    | none => .ok none
    | some info =>
      match infoOf info with
      | .error e => .error e
      | .ok ci => .ok (some ci)
  else .ok none

/-! ### Saving -/

/-- What `save` needs to know of a `FileAccess`: its directory and name, the result of `os.stat` on the open file (or its
name), and its content. -/
structure SaveFile where
  mine : Bool
  fname : Str
  stat : R Stat
  info : CacheInfo
  deriving DecidableEq, Repr

/-- The entry made for a file, run_files_map.py:155-162. -/
def newInfo (fname : Str) (st : Stat) (ci : CacheInfo) : MapInfo :=
  ⟨some fname, some st.mtime, some st.size, some ci.trainIds, some (sortStrs ci.controlSources),
    some (sortStrs ci.instrumentSources)⟩

/-- One step of the first loop of `save`, run_files_map.py:136-162, with `need_save`. -/
def saveEntry (s : Dict Str MapInfo × Bool) (f : SaveFile) : R (Dict Str MapInfo × Bool) :=
  if f.mine ∧ f.fname ∉ s.1.keys then
    match f.stat with
    | .error e => .error e
    | .ok st => .ok (s.1.set f.fname (newInfo f.fname st f.info), true)
  else .ok s

/-- The document written, run_files_map.py:166. -/
def saveDoc (d : Dict Str MapInfo) : List MapInfo :=
  (d.insertionSort (fun a b => a.1 ≤ b.1)).map Prod.snd

/-- The loop over the possible files in `save`, run_files_map.py:167-178: `attempt` is the outcome of creating the
directory and writing the file. Gives the position of the file written. Only PermissionError is caught. -/
def trySave (attempt : Nat → R Unit) : List Nat → R (Option Nat)
  | [] => .ok none
  | pos :: rest =>
    match attempt pos with
    | .ok () => .ok (some pos)
    | .error .permission => trySave attempt rest
    | .error e => .error e

/-- `save(files)`, run_files_map.py:127-178, with the number of possible files: the new `files_data`, and what was
written where. -/
def FilesMap.save (m : FilesMap) (ncand : Nat) (attempt : Nat → R Unit) (files : List SaveFile) :
    R (FilesMap × Option (Nat × List MapInfo)) :=
  match foldE saveEntry (m.filesData, false) files with
  | .error e => .error e
  | .ok (d, needSave) =>
    if needSave then
      match trySave attempt (List.range ncand) with
      | .error e => .error e
      | .ok none => .ok (⟨d, m.cacheFile⟩, none)
      | .ok (some pos) => .ok (⟨d, m.cacheFile⟩, some (pos, saveDoc d))
    else .ok (⟨d, m.cacheFile⟩, none)

/-! ### Opening a run directory -/

/-- A data file on disk: its `stat` and what opening it gives. -/
structure DiskFile (V : Type) where
  stat : Stat
  content : R (H5File V)
  deriving DecidableEq, Repr

/-- `FileAccess(path, _cache_info)`, reader.py:78-94: with cached information the file is not opened. A file which is
not there or is no HDF5 file gives an OSError. Simplification: a file opened from the cache has the content of the file
on disk, or none. -/
def openFile (disk : Str → Option (DiskFile V)) (path fname : Str) (ci : Option CacheInfo) : R (FileAccess V) :=
  match disk fname, ci with
  | some ⟨_, .ok h⟩, ci => FileAccess.init path h ci
  | some ⟨_, .error _⟩, some ci => FileAccess.init path ⟨none, none, none, none, [], [], []⟩ (some ci)
  | none, some ci => FileAccess.init path ⟨none, none, none, none, [], [], []⟩ (some ci)
  | some ⟨_, .error e⟩, none => .error e
  | none, none => .error .os

/-- The loop of `from_paths` with a files map, reader.py:258-267: an exception of `get` is not caught. -/
def openAll (disk : Str → Option (DiskFile V)) (path : Str) (d : Dict Str MapInfo) :
    List Str → R (List (R (FileAccess V)))
  | [] => .ok []
  | fname :: rest =>
    match getInfo d true fname with
    | .error e => .error e
    | .ok ci =>
      match openAll disk path d rest with
      | .error e => .error e
      | .ok l => .ok (openFile disk (pathJoin path fname) fname ci :: l)

/-- The file names of a run, reader.py:1336-1339. -/
def runFiles (listing : List Str) (include_ : Str) : List Str :=
  (listing.filter (fun f => endsWith f (ch! ".h5"))).filter (fun f => globMatch include_ f)

/-- `RunDirectory(path, include)` up to saving the map, reader.py:1336-1343: the files map (if it gets that far, whatever
comes after) and the data collection. Simplification: nothing changes on disk meanwhile (`FilesMapHistory` has the
general case). -/
def runDirectory (disk : Str → Option (DiskFile V)) (candidates : List CacheFile) (path : Str) (listing : List Str)
    (include_ : Str) : R (FilesMap × DC V) :=
  let files := runFiles listing include_
  if files.isEmpty then .error .generic
  else
    match FilesMap.load candidates (fun f => (disk f).map DiskFile.stat) with
    | .error e => .error e
    | .ok m =>
      match openAll disk path m.filesData files with
      | .error e => .error e
      | .ok opened =>
        match DC.fromPaths opened with
        | .error e => .error e
        | .ok c => .ok (m, c)

end KD

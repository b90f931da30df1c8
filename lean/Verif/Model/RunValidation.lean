/-
Model of `RunValidator`, /repo/karabo_data/validation.py:145-203: checking all files of a run directory and the cached
files map.
-/
import Verif.Model.FilesMap
import Verif.Model.Validation

namespace KD

variable {V : Type}

/-- The problems which `RunValidator` records. -/
inductive RunProblem where
  | cannotOpen (path : Str) (e : PyErr)                      -- validation.py:176
  | noFiles                                                  -- validation.py:179-181
  | inFile (path : Str) (p : Problem)                        -- validation.py:184-186
  | wrongEntry (cacheFile : Option Nat) (path : Str)         -- validation.py:199-203
  deriving DecidableEq, Repr

/-- `RunValidator` after `__init__`: the files (each with its name, the last component of its path), the files which
could not be opened. -/
structure RunVal (V : Type) where
  files : List (Str × FileAccess V)
  excluded : List (Str × PyErr)
  deriving DecidableEq, Repr

/-- `RunValidator.__init__(run_dir)`, validation.py:146-160, with the result of `glob` as a list of names.
`DataCollection(files)` (line 159) raises if files conflict. -/
def RunVal.init (disk : Str → Option (DiskFile V)) (dir : Str) (names : List Str) : R (RunVal V) :=
  let opened := names.map (fun n => (n, openFile disk (pathJoin dir n) n none))
  let files := opened.filterMap (fun x => match x.2 with | .ok f => some (x.1, f) | .error _ => none)
  let excluded := opened.filterMap (fun x => match x.2 with | .ok _ => none | .error e => some (pathJoin dir x.1, e))
  match DC.make (files.map Prod.snd) none none true with
  | .error e => .error e
  | .ok _ => .ok ⟨files, excluded⟩

/-- `check_files_openable()`, validation.py:174-181. -/
def RunVal.checkOpenable (v : RunVal V) : List RunProblem :=
  v.excluded.map (fun x => .cannotOpen x.1 x.2) ++ if v.files.isEmpty then [.noFiles] else []

/-- One file in `check_files()`, validation.py:184-186. -/
def checkFile (f : Str × FileAccess V) : R (List RunProblem) :=
  match f.2.runChecks with
  | .error e => .error e
  | .ok ps => .ok (ps.map (fun p => .inFile f.2.filename p))

/-- Equality of Python sets, given as lists. -/
def sameSet (a b : List Str) : Bool := a.all (fun s => decide (s ∈ b)) && b.all (fun s => decide (s ∈ a))

/-- One file in `check_files_map()`, validation.py:192-203. `f_cache` may be None, and then `f_cache['control_sources']`
raises TypeError. -/
def checkEntry (m : FilesMap) (f : Str × FileAccess V) : R (List RunProblem) :=
  match getInfo m.filesData true f.1 with
  | .error e => .error e
  | .ok none => .error .type
  | .ok (some ci) =>
    if sameSet ci.controlSources f.2.controlSources = false ∨ sameSet ci.instrumentSources f.2.instrumentSources = false ∨
        ci.trainIds ≠ f.2.trainIds
    then .ok [.wrongEntry m.cacheFile f.2.filename] else .ok []

/-- `run_checks()`, validation.py:167-172; the cache is loaded in `check_files_map`, line 191. -/
def RunVal.runChecks (v : RunVal V) (disk : Str → Option (DiskFile V)) (candidates : List CacheFile) :
    R (List RunProblem) :=
  match mapE checkFile v.files with
  | .error e => .error e
  | .ok ps =>
    match FilesMap.load candidates (fun f => (disk f).map DiskFile.stat) with
    | .error e => .error e
    | .ok m =>
      match mapE (checkEntry m) v.files with
      | .error e => .error e
      | .ok qs => .ok (v.checkOpenable ++ ps.flatten ++ qs.flatten)

/-- `RunValidator(run_dir).run_checks()`, validation.py:145-203. -/
def validateRun (disk : Str → Option (DiskFile V)) (candidates : List CacheFile) (dir : Str) (names : List Str) :
    R (List RunProblem) :=
  match RunVal.init disk dir names with
  | .error e => .error e
  | .ok v => v.runChecks disk candidates

end KD

/-
`karabo-data-validate`: the text of `ValidationError` and `main`, /repo/karabo_data/validation.py:14-25 and 205-227.
Command line arguments are not modelled: there is the one argument `path`.
-/
import Verif.Model.RunValidation

namespace KD

variable {V : Type}

/-- A problem as recorded: a dict with the message and the other entries, in the order in which they were put in. The values are
the texts which `format` makes of them (line 23). -/
structure ProbDict where
  msg : Str
  items : List (Str × Str)
  deriving DecidableEq, Repr

/-- `str(shape)` of an array with one dimension. -/
def shape1 (n : Nat) : Str := '(' :: natStr n ++ ch! ",)"

/-- `record(msg, **kwargs)`, validation.py:45-46, with the messages and arguments on the lines given beside `Problem`. -/
def Problem.toDict (file : Str) : Problem → ProbDict
  | .zeros => ⟨ch! "Zeroes in trainId index before last train ID",
      [(ch! "file", file), (ch! "dataset", ch! "INDEX/trainId")]⟩
  | .notIncreasing pos a b => ⟨ch! "Train IDs are not strictly increasing, e.g. at " ++ natStr pos ++ ch! " (" ++ natStr a ++
      ch! " >= " ++ natStr b ++ ch! ")", [(ch! "file", file), (ch! "dataset", ch! "INDEX/trainId")]⟩
  | .outside d maxEnd size => ⟨ch! "Index referring to data (" ++ natStr maxEnd ++ ch! ") outside dataset (" ++ natStr size ++
      ch! ")", [(ch! "file", file), (ch! "dataset", d)]⟩
  | .lengths d a b => ⟨ch! "Index first & count have different number of entries",
      [(ch! "file", file), (ch! "dataset", d), (ch! "first_shape", shape1 a), (ch! "count_shape", shape1 b)]⟩
  | .entries d a b => ⟨ch! "Index has wrong number of entries",
      [(ch! "file", file), (ch! "dataset", d), (ch! "index_shape", shape1 a), (ch! "trainids_shape", shape1 b)]⟩
  | .start d => ⟨ch! "Index doesn't start at 0", [(ch! "file", file), (ch! "dataset", d)]⟩
  | .gaps d number pos a n b => ⟨ch! "Gaps (" ++ natStr number ++ ch! ") in index, e.g. at " ++ natStr pos ++ ch! " (" ++
      natStr a ++ ch! " + " ++ natStr n ++ ch! " < " ++ natStr b ++ ch! ")", [(ch! "file", file), (ch! "dataset", d)]⟩
  | .overlaps d number pos a n b => ⟨ch! "Overlaps (" ++ natStr number ++ ch! ") in index, e.g. at " ++ natStr pos ++
      ch! " (" ++ natStr a ++ ch! " + " ++ natStr n ++ ch! " > " ++ natStr b ++ ch! ")",
      [(ch! "file", file), (ch! "dataset", d)]⟩

/-- The problems of a run, validation.py:174-203; `errText` is the text of the exception on opening a file, `cacheText` the path
of the cache file, or None. -/
def RunProblem.toDict (dir : Str) (errText : Str → PyErr → Str) (cacheText : Option Nat → Str) : RunProblem → ProbDict
  | .cannotOpen path e => ⟨ch! "Could not open file", [(ch! "file", path), (ch! "error", errText path e)]⟩
  | .noFiles => ⟨ch! "No usable files found", [(ch! "directory", dir)]⟩
  | .inFile path p => p.toDict path
  | .wrongEntry cf path => ⟨ch! "Incorrect data map cache entry", [(ch! "cache_file", cacheText cf), (ch! "data_file", path)]⟩

/-- `sorted(prob.items())`, validation.py:21: the keys are all different, so that the order is that of the keys. -/
def ProbDict.sortedItems (p : ProbDict) : List (Str × Str) :=
  ((ch! "msg", p.msg) :: p.items).insertionSort (fun x y => x.1 ≤ y.1)

/-- The lines about one problem, validation.py:20-23. -/
def ProbDict.lines (p : ProbDict) : List Str :=
  [[], p.msg] ++ (p.sortedItems.filter (fun x => x.1 != ch! "msg")).map (fun x => ch! "  " ++ x.1 ++ ch! ": " ++ x.2)

/-- `ValidationError.__str__()`, validation.py:18-25. -/
def errorText (ps : List ProbDict) : Str := joinCh '\n' (ps.flatMap ProbDict.lines)

/-- What `main` did: what it printed, one text for each `print`, and what it returned, or the exception raised in it. `None` is the
exit status 0. -/
structure Ran where
  printed : List Str
  result : R (Option Nat)
  deriving DecidableEq, Repr

/-- The end of `main`, validation.py:219-226: `checks` is the result of `run_checks`, and `validate` (34-37, 162-165) raises if there
are some problems. -/
def reportChecks (printed : List Str) (checks : R (List ProbDict)) : Ran :=
  match checks with
  | .error e => ⟨printed, .error e⟩
  | .ok [] => ⟨printed ++ [ch! "No problems found"], .ok none⟩
  | .ok (p :: ps) => ⟨printed ++ [ch! "Validation failed!", errorText (p :: ps)], .ok (some 1)⟩

/-- `FileValidator(H5File(path).files[0]).run_checks()`, validation.py:217. -/
def fileChecks (opened : R (FileAccess V)) : R (List ProbDict) :=
  match DC.fromPath opened with
  | .error e => .error e
  | .ok c =>
    match nth c.files 0 with
    | .error e => .error e
    | .ok f =>
      match f.runChecks with
      | .error e => .error e
      | .ok ps => .ok (ps.map (Problem.toDict f.filename))

/-- `RunValidator(path).run_checks()`, validation.py:214. -/
def runChecksOf (dir : Str) (errText : Str → PyErr → Str) (cacheText : Option Nat → Str) (checks : R (List RunProblem)) :
    R (List ProbDict) :=
  match checks with
  | .error e => .error e
  | .ok ps => .ok (ps.map (RunProblem.toDict dir errText cacheText))

/-- `main([path])`, validation.py:205-227, with the test `os.path.isdir`, the result of opening the file, and the result of
`RunValidator(path).run_checks()`, which is `validateRun`. -/
def validateMain (path : Str) (isdir : Bool) (opened : R (FileAccess V)) (checks : R (List RunProblem))
    (errText : Str → PyErr → Str) (cacheText : Option Nat → Str) : Ran :=
  if isdir then reportChecks [ch! "Checking run directory: " ++ path] (runChecksOf path errText cacheText checks)
  else reportChecks [ch! "Checking file: " ++ path] (fileChecks opened)

end KD

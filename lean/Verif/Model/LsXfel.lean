/-
`lsxfel`, /repo/karabo_data/lsxfel.py: which files and folders it recognises, what it counts, and its exit code.
What is printed is a list of items instead of text. The content of files and folders is fixed while it runs.
-/
import Verif.Model.Names
import Verif.Model.Writer

namespace KD

/-- What is at a path: a folder with the names in it (in the order of `os.listdir`), or a file. -/
inductive LsNode where
  | dir (names : List Str)
  | file

/-- What lsxfel uses of an opened file, reader.py:296-301 and `detector_info`, reader.py:1095-1126. -/
structure LsFile where
  trainIds : List Nat
  /-- the set, in the order in which it is iterated -/
  detectorSources : List Str
  instrumentSources : List Str
  controlSources : List Str
  /-- dims (only arrays of two dimensions), frames per train, total frames -/
  detectorInfo : Str → R ((Nat × Nat) × Nat × Nat)

/-- The file system and the functions of the reader which lsxfel calls. -/
structure LsFs where
  node : Str → Option LsNode
  abspath : Str → Str
  cwd : Str
  /-- `H5File(path)` -/
  h5file : Str → R LsFile
  /-- `RunDirectory(path).info()` -/
  runInfo : Str → R Unit

/-- One printed item. -/
inductive LsOut where
  | name (basename : Str) (descr : Descr)
  | trains (n : Nat)
  | pixels (a b : Nat)
  | frames (perTrain total : Nat)
  | instrument (n : Nat) (sources : List Str)
  | control (n : Nat) (sources : List Str)
  | detFile (trains perTrain total : Nat)
  | runDir (basename : Str)
  | run (indented : Bool) (basename : Str) (trains detector other : Nat)
  | proposalData (basename : Str)
  | proposal (basename : Str)
  | raw (basename : Str)
  | unknownDir (basename : Str)
  | unknownFile (basename : Str)
  | notFound (path : Str)
  deriving DecidableEq, Repr

/-- Printing, and then a result or an exception. -/
abbrev Pr (α : Type) := List LsOut × R α

/-- `f` and then `g`, unless f raises. -/
def Pr.then {α β : Type} (f : Pr α) (g : α → Pr β) : Pr β :=
  match f.2 with
  | .error e => (f.1, .error e)
  | .ok a => (f.1 ++ (g a).1, (g a).2)

/-- A part which prints nothing. -/
def Pr.quiet {α : Type} (r : R α) : Pr α := ([], r)

/-- `print(x)`. -/
def Pr.print (x : LsOut) : Pr Unit := ([x], .ok ())

/-- `for x in l: f(x)`. -/
def Pr.each {α : Type} (f : α → Pr Unit) : List α → Pr Unit
  | [] => ([], .ok ())
  | a :: l => (f a).then (fun _ => Pr.each f l)

/-- The element of a set which is iterated first, `next(iter(s))`. -/
def firstOf (l : List Str) : R Str :=
  match l with
  | [] => .error .stopIteration
  | a :: _ => .ok a

/-- `describe_file`, lsxfel.py:14-40. -/
def describeFile (fs : LsFs) (path : Str) : Pr Unit :=
  (Pr.quiet (filenameInfo (osBasename path))).then fun info =>
  (Pr.print (.name (osBasename path) info.description)).then fun _ =>
  (Pr.quiet (fs.h5file path)).then fun f =>
  (Pr.print (.trains f.trainIds.length)).then fun _ =>
  if info.isDetector then
    (Pr.quiet (firstOf f.detectorSources)).then fun src =>
    (Pr.quiet (f.detectorInfo src)).then fun d =>
    (Pr.print (.pixels d.1.1 d.1.2)).then fun _ =>
    Pr.print (.frames d.2.1 d.2.2)
  else
    (Pr.print (.instrument f.instrumentSources.length (sortStrs f.instrumentSources))).then fun _ =>
    Pr.print (.control f.controlSources.length (sortStrs f.controlSources))

/-- `summarise_file`, lsxfel.py:43-58: there is no attribute `sources` (line 58). -/
def summariseFile (fs : LsFs) (path : Str) : Pr Unit :=
  (Pr.quiet (filenameInfo (osBasename path))).then fun info =>
  (Pr.print (.name (osBasename path) info.description)).then fun _ =>
  (Pr.quiet (fs.h5file path)).then fun f =>
  if info.isDetector then
    (Pr.quiet (firstOf f.detectorSources)).then fun src =>
    (Pr.quiet (f.detectorInfo src)).then fun d =>
    Pr.print (.detFile f.trainIds.length d.2.1 d.2.2)
  else Pr.quiet (.error .attribute)

/-- `describe_run`, lsxfel.py:61-67. -/
def describeRun (fs : LsFs) (path : Str) : Pr Unit :=
  (Pr.print (.runDir (osBasename path))).then fun _ => Pr.quiet (fs.runInfo path)

/-- Does the text begin with `-S`, digits and `.h5`? (`-S\d+\.h5` in lsxfel.py:79; `\d` is taken as 0-9). -/
def isSegmentEnd (s : Str) : Bool :=
  startsWith s ch! "-S" && ((s.drop 2).takeWhile Char.isDigit) ≠ [] && startsWith ((s.drop 2).dropWhile Char.isDigit) ch! ".h5"

/-- The lengths to try for `.+`, the longest first: the text has no line break in it, lsxfel.py:79. -/
def segmentGroupAt (s : Str) : Nat → Option Str
  | 0 => none
  | k + 1 => if isSegmentEnd (s.drop (k + 1)) ∧ '\n' ∉ s.take (k + 1) then some (s.take (k + 1)) else segmentGroupAt s k

/-- `re.match(r'(.+)-S\d+\.h5', osp.basename(f))`, lsxfel.py:79: the first group. -/
def segmentGroup (f : Str) : Option Str := segmentGroupAt (osBasename f) (osBasename f).length

/-- The state of the loop in lsxfel.py:76-85. -/
structure Segments where
  groups : Dict Str (List Str)
  nDetector : Nat
  nOther : Nat

/-- One file, lsxfel.py:79-85. -/
def segmentStep (st : Segments) (f : Str) : R Segments :=
  match segmentGroup f with
  | none => .ok st
  | some g =>
    let groups := st.groups.set g (((st.groups.get? g).getD []) ++ [f])
    match filenameInfo f with
    | .error e => .error e
    | .ok info => .ok (if info.isDetector then { st with groups := groups, nDetector := st.nDetector + 1 }
        else { st with groups := groups, nOther := st.nOther + 1 })

/-- `sorted(groups, key=len)[0]`, lsxfel.py:91: the first of the shortest lists. -/
def shortestGroup (groups : List (List Str)) : List Str :=
  (groups.insertionSort (fun a b => a.length ≤ b.length)).headD []

/-- The train IDs of a file, lsxfel.py:94. -/
def fileTrains (fs : LsFs) (path f : Str) : R (List Nat) :=
  match fs.h5file (osJoin path f) with
  | .error e => .error e
  | .ok x => .ok x.trainIds

/-- What `summarise_run` counts, lsxfel.py:70-97: trains, detector files, other files. `os.listdir` raises if there is no folder. -/
def countRun (fs : LsFs) (path : Str) : R (Nat × Nat × Nat) :=
  match fs.node path with
  | none => .error .fileNotFound
  | some .file => .error .os
  | some (.dir names) =>
    match foldE segmentStep ⟨[], 0, 0⟩ (sortStrs names) with
    | .error e => .error e
    | .ok st =>
      if st.groups.length < 1 then .error .value
      else
        match mapE (fileTrains fs path) (shortestGroup (st.groups.map Prod.snd)) with
        | .error e => .error e
        | .ok ts => .ok (ts.flatten.dedup.length, st.nDetector, st.nOther)

/-- `summarise_run`, lsxfel.py:70-98. -/
def summariseRun (fs : LsFs) (indented : Bool) (path : Str) : Pr Unit :=
  (Pr.quiet (countRun fs path)).then fun c => Pr.print (.run indented (osBasename path) c.1 c.2.1 c.2.2)

/-- `re.match(r'r\d+', f)`, lsxfel.py:117, 123, 131, 154, 160 (`\d` is taken as 0-9). -/
def isRunName : Str → Bool
  | 'r' :: c :: _ => c.isDigit
  | _ => false

/-- `os.path.isdir(path)`. -/
def LsFs.isDir (fs : LsFs) (path : Str) : Bool :=
  match fs.node path with
  | some (.dir _) => true
  | _ => false

/-- Summarise the runs in a folder, lsxfel.py:121-124, 129-132, 158-161. -/
def summariseRuns (fs : LsFs) (path : Str) (names : List Str) : Pr Unit :=
  Pr.each (fun f => if isRunName f && fs.isDir (osJoin path f) then summariseRun fs true (osJoin path f) else Pr.quiet (.ok ())) names

/-- `path.rstrip('/')`. -/
def rstripSlash (path : Str) : Str := (path.reverse.dropWhile (· = '/')).reverse

/-- The names in `raw`, lsxfel.py:129. -/
def LsFs.names (fs : LsFs) (path : Str) : List Str :=
  match fs.node path with
  | some (.dir names) => names
  | _ => []

/-- `main` with one path, lsxfel.py:108-143. The result is the exit code; None counts as 0 (`sys.exit(None)`). -/
def lsOne (fs : LsFs) (path : Str) : Pr Nat :=
  let basename := osBasename (fs.abspath (rstripSlash path))
  match fs.node path with
  | some (.dir names) =>
    let contents := sortStrs names
    if contents.any (fun f => endsWith f ch! ".h5") then (describeRun fs path).then fun _ => Pr.quiet (.ok 0)
    else if contents.any isRunName then
      (Pr.print (.proposalData basename)).then fun _ => (summariseRuns fs path contents).then fun _ => Pr.quiet (.ok 0)
    else if fs.isDir (osJoin path ch! "raw") then
      (Pr.print (.proposal basename)).then fun _ => (Pr.print (.raw basename)).then fun _ =>
      (summariseRuns fs (osJoin path ch! "raw") (sortStrs (fs.names (osJoin path ch! "raw")))).then fun _ => Pr.quiet (.ok 0)
    else (Pr.print (.unknownDir basename)).then fun _ => Pr.quiet (.ok 0)
  | some .file =>
    if endsWith path ch! ".h5" then (describeFile fs path).then fun _ => Pr.quiet (.ok 0)
    else (Pr.print (.unknownFile basename)).then fun _ => Pr.quiet (.ok 2)
  | none => (Pr.print (.notFound path)).then fun _ => Pr.quiet (.ok 2)

/-- One of several paths, lsxfel.py:146-173; the number is the exit code so far. -/
def lsStep (fs : LsFs) (code : Nat) (path : Str) : Pr Nat :=
  let basename := osBasename path
  match fs.node path with
  | some (.dir contents) =>
    if contents.any (fun f => endsWith f ch! ".h5") then (summariseRun fs false path).then fun _ => Pr.quiet (.ok code)
    else if contents.any isRunName then
      (Pr.print (.proposal basename)).then fun _ => (summariseRuns fs path contents).then fun _ => Pr.quiet (.ok code)
    else (Pr.print (.unknownDir basename)).then fun _ => Pr.quiet (.ok 2)
  | some .file =>
    if endsWith path ch! ".h5" then (summariseFile fs path).then fun _ => Pr.quiet (.ok code)
    else (Pr.print (.unknownFile basename)).then fun _ => Pr.quiet (.ok 2)
  | none => (Pr.print (.notFound path)).then fun _ => Pr.quiet (.ok 2)

/-- The loop over several paths, lsxfel.py:145-175. -/
def lsMany (fs : LsFs) : Nat → List Str → Pr Nat
  | code, [] => ([], .ok code)
  | code, p :: ps => (lsStep fs code p).then fun code => lsMany fs code ps

/-- `main`, lsxfel.py:100-175: what is printed and the exit code. -/
def lsMain (fs : LsFs) (args : List Str) : Pr Nat :=
  match (if args = [] then [fs.abspath fs.cwd] else args) with
  | [path] => lsOne fs path
  | paths => lsMany fs 0 paths

end KD

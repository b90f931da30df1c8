/-
Names: finding the directory of a run (`open_run`, /repo/karabo_data/reader.py:1355-1389, and `find_proposal`,
/repo/karabo_data/read_machinery.py:195-207), understanding file names (`FilenameInfo`, read_machinery.py:167-192) and the text of
`by_id[...]` and `by_index[...]` (read_machinery.py:23-55).
-/
import Verif.Model.Glob

namespace KD

/-! ### Python text functions -/

/-- `s.rjust(n, '0')`. -/
def rjust0 (n : Nat) (s : Str) : Str := List.replicate (n - s.length) '0' ++ s

/-- `'{:0nd}'.format(z)`: zeros between the sign and the digits up to n characters. -/
def fmt0 (n : Nat) (z : Int) : Str :=
  if z < 0 then '-' :: rjust0 (n - 1) (natStr z.natAbs) else rjust0 n (natStr z.toNat)

/-- `str(z)` and `repr(z)`. -/
def intStr (z : Int) : Str := if z < 0 then '-' :: natStr z.natAbs else natStr z.toNat

/-- `osp.join(a, b)` (POSIX). -/
def osJoin (a b : Str) : Str :=
  if startsWith b ch! "/" then b else if a = [] ∨ endsWith a ch! "/" then a ++ b else a ++ '/' :: b

/-- `osp.basename(path)`: what follows the last slash. -/
def osBasename (path : Str) : Str := (splitCh '/' path).getLastD []

/-! ### open_run -/

/-- An argument which is an int or a str. -/
inductive NumArg where
  | int (z : Int)
  | str (s : Str)
  deriving DecidableEq, Repr

/-- The name of the proposal, reader.py:1377-1380. -/
def proposalName : NumArg → Str
  | .int z => 'p' :: fmt0 6 z
  | .str s => if '/' ∉ s ∧ ¬ startsWith s ch! "p" then 'p' :: rjust0 6 s else s

/-- The name of the run, reader.py:1384-1387. -/
def runName : NumArg → Str
  | .int z => 'r' :: fmt0 4 z
  | .str s => if ¬ startsWith s ch! "r" then 'r' :: rjust0 4 s else s

/-- `DATA_ROOT_DIR`, read_machinery.py:20. -/
def dataRoot : Str := ch! "/gpfs/exfel/exp"

/-- `glob.has_magic(s)`. -/
def hasMagic (s : Str) : Bool := '*' ∈ s || '?' ∈ s || '[' ∈ s

/-- Does `glob` find a name with a pattern for one component of a path? Without wildcards the name must be the pattern; otherwise names
which begin with a dot are found only by patterns which do. -/
def globFinds (pat name : Str) : Bool :=
  if hasMagic pat then globMatch pat name && (startsWith pat ch! "." || !startsWith name ch! ".") else pat == name

/-- The first directory which `iglob(osp.join(DATA_ROOT_DIR, '*/*/' + propno))` finds, read_machinery.py:202; `dirs` are the names
(instrument, cycle, proposal) of the directories in DATA_ROOT_DIR, in the order in which the file system lists them. -/
def firstProposal (dirs : List (Str × Str × Str)) (propno : Str) : Option (Str × Str × Str) :=
  dirs.find? (fun d => globFinds ch! "*" d.1 && globFinds ch! "*" d.2.1 && globFinds propno d.2.2)

/-- `find_proposal`, read_machinery.py:195-207. -/
def findProposal (dirs : List (Str × Str × Str)) (propno : Str) : R Str :=
  if '/' ∈ propno then .ok propno
  else
    match firstProposal dirs propno with
    | none => .error .generic
    | some d => .ok (dataRoot ++ '/' :: d.1 ++ '/' :: d.2.1 ++ '/' :: d.2.2)

/-- The path which `open_run` gives to `RunDirectory`, reader.py:1377-1389. -/
def openRunPath (dirs : List (Str × Str × Str)) (proposal run : NumArg) (data : Str) : R Str :=
  match findProposal dirs (proposalName proposal) with
  | .error e => .error e
  | .ok dir => .ok (osJoin (osJoin dir data) (runName run))

/-! ### FilenameInfo -/

/-- The letters `[A-Z]` of a regular expression. -/
def isUpperAZ (c : Char) : Bool := 'A' ≤ c && c ≤ 'Z'

/-- `re.match(r'([A-Z]+)(\d+)', s)`, read_machinery.py:179: the two groups. `\d` is taken as 0-9 (Python accepts other Unicode digits,
which are not modelled). What follows is ignored. -/
def matchLettersDigits (s : Str) : Option (Str × Str) :=
  let letters := s.takeWhile isUpperAZ
  let digits := (s.dropWhile isUpperAZ).takeWhile Char.isDigit
  if letters = [] ∨ digits = [] then none else some (letters, digits)

/-- `DETECTOR_NAMES`, read_machinery.py:17. -/
def detectorNames : List Str := [ch! "AGIPD", ch! "DSSC", ch! "LPD"]

/-- The attribute `description`: a text, or (line 192) a tuple of two. -/
inductive Descr where
  | text (s : Str)
  | pair (a b : Str)
  deriving DecidableEq, Repr

/-- The attributes of a `FilenameInfo`; the module number is a text (-1 if there is none). -/
structure NameInfo where
  basename : Str
  isDetector : Bool
  detectorName : Option Str
  detectorModuleno : Option Str
  description : Descr
  deriving DecidableEq, Repr

/-- `_rawcorr_descr.get(rawcorr, '?')`, read_machinery.py:172, 189. -/
def rawcorrDescr (s : Str) : Str :=
  if s = ch! "RAW" then ch! "Raw" else if s = ch! "CORR" then ch! "Corrected" else ch! "?"

/-- `FilenameInfo(path)`, read_machinery.py:174-192; AssertionError unless the name has four parts. -/
def filenameInfo (path : Str) : R NameInfo :=
  let basename := osBasename path
  match splitCh '-' (basename.take (basename.length - 3)) with
  | [rawcorr, _runno, datasrc, _segment] =>
    match matchLettersDigits datasrc with
    | some (name, moduleno) =>
      if name = ch! "DA" then .ok ⟨basename, false, none, none, .text ch! "Aggregated data"⟩
      else if name ∈ detectorNames then
        .ok ⟨basename, true, some name, some moduleno,
          .text (rawcorrDescr rawcorr ++ ch! " detector data from " ++ name ++ ch! " module " ++ moduleno)⟩
      else .ok ⟨basename, false, none, none, .pair ch! "Unknown data source ({})" datasrc⟩
    | none => .ok ⟨basename, false, none, none, .pair ch! "Unknown data source ({})" datasrc⟩
  | _ => .error .assertion

/-! ### The text of by_id and by_index -/

/-- One index: an integer, a slice, an ellipsis or a list of integers. -/
inductive IxItem where
  | int (z : Int)
  | slice (start stop step : Option Int)
  | ellipsis
  | list (l : List Int)
  deriving DecidableEq, Repr

/-- What is between the brackets. -/
inductive IxValue where
  | one (i : IxItem)
  | tuple (l : List IxItem)
  deriving DecidableEq, Repr

/-- `', '.join(l)`. -/
def joinComma : List Str → Str
  | [] => []
  | [a] => a
  | a :: b :: l => a ++ ch! ", " ++ joinComma (b :: l)

/-- A bound of a slice as text: nothing for None, read_machinery.py:50-51. -/
def boundStr : Option Int → Str
  | none => []
  | some z => intStr z

/-- The step of a slice as text, read_machinery.py:52. -/
def stepStr : Option Int → Str
  | none => []
  | some z => ':' :: intStr z

/-- `_indexing_repr`, read_machinery.py:44-55; lists are written as by `repr`. -/
def indexingRepr : IxItem → Str
  | .ellipsis => ch! "..."
  | .slice start stop step => boundStr start ++ ':' :: boundStr stop ++ stepStr step
  | .int z => intStr z
  | .list l => '[' :: joinComma (l.map intStr) ++ ch! "]"

/-- The indices as a tuple, read_machinery.py:36-38. -/
def IxValue.items : IxValue → List IxItem
  | .one i => [i]
  | .tuple l => l

/-- `__repr__` of `by_id` and `by_index`, read_machinery.py:35-42; `cls` is the name of the class. -/
def sliceRepr (cls : Str) (v : IxValue) : Str :=
  cls ++ '[' :: joinComma (v.items.map indexingRepr) ++ ch! "]"

end KD

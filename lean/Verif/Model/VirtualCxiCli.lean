/-
The command `karabo-data-make-virtual-cxi`, /repo/karabo_data/cli/make_virtual_cxi.py. Parsing the options by argparse is not modelled, and
writing the file is in Model/Cxi.
-/
import Verif.Model.Names

namespace KD

/-- The arguments, make_virtual_cxi.py:24-39. -/
structure CliArgs where
  runDir : Str
  runNumber : Option Str
  output : Option Str
  minModules : Int

/-- What the command asks of the operating system and of the rest of the package. -/
structure CliEnv where
  abspath : Str → Str
  readable : Str → Bool
  writable : Str → Bool
  /-- `RunDirectory(path)`: are there sources of an AGIPD or an LPD (other exceptions of the constructors are given)? -/
  openRun : Str → R Unit
  agipd : Str → Int → R Unit
  lpd : Str → Int → R Unit

/-- The detectors, make_virtual_cxi.py:16. -/
inductive CliDet where
  | agipd
  | lpd
  deriving DecidableEq, Repr

/-- How the command ends. -/
inductive CliEnd where
  | badInput           -- lines 57-58
  | noRead (dir : Str) -- line 66
  | noWrite (dir : Str) -- line 68
  | noDetector         -- line 74
  | write (det : CliDet) (runDir outFile : Str) -- line 76
  | raised (e : PyErr)
  deriving DecidableEq, Repr

/-- Without one character c at the end. -/
def stripOne (c : Char) (s : Str) : Str := if endsWith s [c] then s.dropLast else s

/-- What is before the name of the run: `…/raw` or `…/proc`, from the end to the start, make_virtual_cxi.py:55. -/
def matchRawProc (run rest : Str) : Option (Str × Str × Str) :=
  if startsWith rest ch! "war/" then some ((rest.drop 4).reverse, ch! "raw", run)
  else if startsWith rest ch! "corp/" then some ((rest.drop 5).reverse, ch! "proc", run)
  else none

/-- `re.search(r'/(raw|proc)/(r\d{4})/?$', run_dir)`, make_virtual_cxi.py:55, 59-60: the text before the match and the two groups.
`$` is also before a line break at the end; `\d` is taken as 0-9. -/
def matchRunDir (s : Str) : Option (Str × Str × Str) :=
  match (stripOne '/' (stripOne '\n' s)).reverse with
  | d4 :: d3 :: d2 :: d1 :: 'r' :: '/' :: rest =>
    if d1.isDigit && d2.isDigit && d3.isDigit && d4.isDigit then matchRawProc ['r', d1, d2, d3, d4] rest else none
  | _ => none

/-- `int(s)` for a text; only a sign and digits are modelled (Python also accepts spaces and underscores). -/
def parseInt : Str → R Int
  | '-' :: s => if s ≠ [] ∧ s.all Char.isDigit then .ok (-(Nat.ofDigitChars 10 s 0 : Nat)) else .error .value
  | s => if s ≠ [] ∧ s.all Char.isDigit then .ok (Nat.ofDigitChars 10 s 0 : Nat) else .error .value

/-- The folder of the run and the output file, make_virtual_cxi.py:43-61. -/
def cliPaths (env : CliEnv) (a : CliArgs) : Except CliEnd (Str × Str) :=
  if a.runNumber.getD [] ≠ [] then
    match parseInt (a.runNumber.getD []) with
    | .error e => .error (.raised e)
    | .ok n =>
      let run := 'r' :: fmt0 4 n
      .ok (osJoin (osJoin a.runDir ch! "proc") run,
        a.output.getD (osJoin (osJoin a.runDir ch! "scratch") (run ++ ch! "_detectors_virt.cxi")))
  else
    let runDir := env.abspath a.runDir
    match a.output with
    | some out => .ok (runDir, out)
    | none =>
      match matchRunDir runDir with
      | none => .error .badInput
      | some (proposal, kind, run) =>
        .ok (runDir, osJoin (osJoin proposal ch! "scratch") (run ++ '_' :: kind ++ ch! "_detectors_virt.cxi"))

/-- `osp.dirname(path)` of a path with a slash: what is before the last one (the root keeps its slash). -/
def osDirname (path : Str) : Str :=
  let head := path.take (path.length - (osBasename path).length)
  if head.all (· = '/') then head else (head.reverse.dropWhile (· = '/')).reverse

/-- `_get_detector`, make_virtual_cxi.py:15-20: only SourceNameError goes on to the next. -/
def getDetector (env : CliEnv) (runDir : Str) (minModules : Int) : R (Option CliDet) :=
  match env.agipd runDir minModules with
  | .ok () => .ok (some .agipd)
  | .error .sourceName =>
    match env.lpd runDir minModules with
    | .ok () => .ok (some .lpd)
    | .error .sourceName => .ok none
    | .error e => .error e
  | .error e => .error e

/-- `main`, make_virtual_cxi.py:23-76. -/
def cliMain (env : CliEnv) (a : CliArgs) : CliEnd :=
  match cliPaths env a with
  | .error e => e
  | .ok (runDir, outFile) =>
    let outDir := osDirname (env.abspath outFile)
    if !env.readable runDir then .noRead runDir
    else if !env.writable outDir then .noWrite outDir
    else
      match env.openRun runDir with
      | .error e => .raised e
      | .ok () =>
        match getDetector env runDir a.minModules with
        | .error e => .raised e
        | .ok none => .noDetector
        | .ok (some det) => .write det runDir outFile

end KD

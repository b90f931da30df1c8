/-
The text printed by `DataCollection.info`, karabo_data/reader.py:1043-1093.
-/
import Verif.Model.Collection

namespace KD

variable {V : Type}

/-- `'%02d' % n`, used by `str(timedelta)`. -/
def pad2 (n : Nat) : Str := if n < 10 then '0' :: natStr n else natStr n

/-- `str(datetime.timedelta(seconds=span_sec))` at reader.py:1050-1051, for a number of tenths of a second: days if there
are any, `H:MM:SS`, and six decimals if the microseconds are not zero.
Simplification: `span_sec` is exact, where the code divides to the nearest float; after rounding to microseconds this
makes no difference for less than 2^32 seconds. -/
def durationText (tenths : Nat) : Str :=
  let days := tenths / 10 / 86400
  let secs := tenths / 10 % 86400
  let micro := tenths % 10
  (if days = 0 then [] else natStr days ++ ch! " day" ++ (if days = 1 then [] else ch! "s") ++ ch! ", ") ++
    (natStr (secs / 60 / 60) ++ ch! ":" ++ pad2 (secs / 60 % 60) ++ ch! ":" ++ pad2 (secs % 60)) ++
    (if micro = 0 then [] else ch! "." ++ natStr micro ++ ch! "00000")

/-- `sep.join(…)` for a separator of several characters, as `' x '.join` at reader.py:1077. -/
def joinText (sep : Str) : List Str → Str
  | [] => []
  | [s] => s
  | s :: t :: l => s ++ sep ++ joinText sep (t :: l)

/-- The lines about one module, reader.py:1071-1082; none if there are no detector modules. -/
def moduleLines : Option ((Str × Str) × Str × List Nat × Nat × Nat) → List Str
  | none => []
  | some ((name, modno), source, dims, fpt, total) =>
    [ch! "  e.g. module " ++ (name ++ ch! " " ++ modno) ++ ch! " : " ++ joinText ch! " x " (dims.map natStr) ++ ch! " pixels",
     ch! "  " ++ source,
     ch! "  " ++ natStr fpt ++ ch! " frames per train, up to " ++ natStr total ++ ch! " frames total"]

/-- `print('  -', d)` at reader.py:1088 and 1092. -/
def itemLine (d : Str) : Str := ch! "  - " ++ d

/-- The lines printed by `info()`, reader.py:1061-1093. -/
def infoLines (o : InfoOut) : List Str :=
  [ch! "# of trains:    " ++ natStr o.trains,
   ch! "Duration:       " ++ durationText o.span,
   ch! "First train ID: " ++ natStr o.first,
   ch! "Last train ID:  " ++ natStr o.last,
   [],
   natStr o.detectorSources ++ ch! " detector modules (" ++ joinCh ',' o.detectorNames ++ ch! ")"] ++
  moduleLines o.module ++
  [[], natStr o.instrument.length ++ ch! " instrument sources (excluding detectors):"] ++
  o.instrument.map itemLine ++
  [[], natStr o.control.length ++ ch! " control sources:"] ++
  o.control.map itemLine ++
  [[]]

/-- Each `print` ends its line. -/
def printLines (ls : List Str) : Str := ls.flatMap (fun l => l ++ ['\n'])

/-- What `info()` prints when it does not fail, reader.py:1043-1093. -/
def DC.printInfo (c : DC V) (pick : List Nat → Nat) : R Str :=
  match c.info pick with
  | .error e => .error e
  | .ok o => .ok (printLines (infoLines o))

/-- The lines printed before `detector_info` is called, reader.py:1046-1070; IndexError without trains, OverflowError for too
long durations, as in `DC.info`. -/
def DC.infoHead (c : DC V) : R (List Str) :=
  match nth c.trainIds 0, pyIndex c.trainIds (-1) with
  | .ok first, .ok last =>
    let span := trainSpan first last
    if span ≥ 864 * 10 ^ 12 then .error .overflow
    else
      .ok [ch! "# of trains:    " ++ natStr c.trainIds.length,
        ch! "Duration:       " ++ durationText span,
        ch! "First train ID: " ++ natStr first,
        ch! "Last train ID:  " ++ natStr last,
        [],
        natStr c.detectorSources.length ++ ch! " detector modules (" ++
          joinCh ',' (((detectorModules c.detectorSources).map (fun x => x.1.1)).dedup.insertionSort (· ≤ ·)) ++ ch! ")"]
  | .error e, _ => .error e
  | _, .error e => .error e

/-- What is on the screen after `info()`, and its exception, reader.py:1043-1093. -/
def DC.infoScreen (c : DC V) (pick : List Nat → Nat) : Str × Option PyErr :=
  match c.infoHead with
  | .error e => ([], some e)
  | .ok lines =>
    match c.printInfo pick with
    | .error e => (printLines lines, some e)
    | .ok text => (text, none)

end KD

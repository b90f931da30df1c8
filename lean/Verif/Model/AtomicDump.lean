/-
Model of `atomic_dump`, /repo/karabo_data/run_files_map.py:14-30, run by any number of processes on the same path, and of
processes reading that path (`open(path)` and `json.load`, run_files_map.py:86-87), as a state machine whose steps are
the single file system operations.
-/
import Verif.Model.Py

namespace KD

/-- A process inside `atomic_dump(obj, path)`: `doc` is the text of the JSON document, `tmp` the name of the temporary
file and `ino` the file itself, `rest` what is not written yet. `failing`: inside the `except` clause (line 26-28). -/
inductive Writer where
  | idle
  | writing (tmp : Str) (ino : Nat) (doc rest : Str)
  | written (tmp : Str) (ino : Nat) (doc : Str)
  | failing (tmp : Str) (ino : Nat)
  | finished
  | failed
  | crashed (tmp : Option Str)
  deriving DecidableEq, Repr

/-- A process reading the file: which file it has opened, how far it has read, what it got. -/
inductive Reader where
  | idle
  | missing
  | reading (ino : Nat) (got : Str)
  | done (got : Str)
  deriving DecidableEq, Repr

/-- The directory, the contents of files, the next free inode, and the processes. -/
structure DumpFS where
  names : Str → Option Nat
  data : Nat → Str
  nextIno : Nat
  writers : Nat → Writer
  readers : Nat → Reader

/-- What can happen. `start p suffix doc`: process p calls `mkstemp` for writing `doc` (line 22) which makes a new file
named `path` with a suffix; `write p n`: the next n characters get to the file (lines 24-25); `close p`: the file is
complete and closed (24-25); `fail p`: an exception while writing (26); `unlink p` (27-28); `replace p` and
`replaceFails p` (30); `crash p`: the process ends wherever it is. `open`, `read` and `finish` are a reading process,
which gets what is in the file in any number of pieces. -/
inductive DumpEvent where
  | start (p : Nat) (suffix doc : Str)
  | write (p n : Nat)
  | close (p : Nat)
  | fail (p : Nat)
  | unlink (p : Nat)
  | replace (p : Nat)
  | replaceFails (p : Nat)
  | crash (p : Nat)
  | open (r : Nat)
  | read (r n : Nat)
  | finish (r : Nat)
  deriving DecidableEq, Repr

/-- A process in `atomic_dump`, run_files_map.py:14-30, gets to another point. -/
def DumpFS.setWriter (w : DumpFS) (p : Nat) (s : Writer) : DumpFS :=
  { w with writers := fun i => if i = p then s else w.writers i }

/-- A process in `load`, run_files_map.py:76-106, gets to another point. -/
def DumpFS.setReader (w : DumpFS) (r : Nat) (s : Reader) : DumpFS :=
  { w with readers := fun i => if i = r then s else w.readers i }

/-- The temporary file of a process, if there is one. -/
def Writer.tmp : Writer → Option Str
  | .writing tmp _ _ _ => some tmp
  | .written tmp _ _ => some tmp
  | .failing tmp _ => some tmp
  | _ => none

/-- Whether a process may call `atomic_dump`: not while it is inside, nor after a crash. -/
def Writer.startable : Writer → Bool
  | .idle => true
  | .finished => true
  | .failed => true
  | _ => false

/-- One event; those which are not possible change nothing. `mkstemp` never takes an existing name, and the name it takes
begins with `path` and goes on with at least one more character. A process may start again when it is done.
Simplification: nothing else writes in the directory; `replace` is atomic (POSIX). -/
def DumpFS.step (path : Str) (w : DumpFS) : DumpEvent → DumpFS
  | .start p suffix doc =>
    if (w.writers p).startable = true ∧ suffix ≠ [] ∧ w.names (path ++ suffix) = none then
      { w.setWriter p (.writing (path ++ suffix) w.nextIno doc doc) with
        names := fun n => if n = path ++ suffix then some w.nextIno else w.names n
        data := fun i => if i = w.nextIno then [] else w.data i
        nextIno := w.nextIno + 1 }
    else w
  | .write p n =>
    match w.writers p with
    | .writing tmp ino doc rest =>
      { w.setWriter p (.writing tmp ino doc (rest.drop n)) with
        data := fun i => if i = ino then w.data i ++ rest.take n else w.data i }
    | _ => w
  | .close p =>
    match w.writers p with
    | .writing tmp ino doc [] => w.setWriter p (.written tmp ino doc)
    | _ => w
  | .fail p =>
    match w.writers p with
    | .writing tmp ino _ _ => w.setWriter p (.failing tmp ino)
    | _ => w
  | .unlink p =>
    match w.writers p with
    | .failing tmp _ => { w.setWriter p .failed with names := fun n => if n = tmp then none else w.names n }
    | _ => w
  | .replace p =>
    match w.writers p with
    | .written tmp ino _ =>
      { w.setWriter p .finished with
        names := fun n => if n = path then some ino else if n = tmp then none else w.names n }
    | _ => w
  | .replaceFails p =>
    match w.writers p with
    | .written tmp _ _ => w.setWriter p (.crashed (some tmp))
    | _ => w
  | .crash p =>
    match w.writers p with
    | .crashed _ => w
    | s => w.setWriter p (.crashed s.tmp)
  | .open r =>
    match w.readers r with
    | .reading _ _ => w
    | _ =>
      match w.names path with
      | none => w.setReader r .missing
      | some ino => w.setReader r (.reading ino [])
  | .read r n =>
    match w.readers r with
    | .reading ino got => w.setReader r (.reading ino (got ++ ((w.data ino).drop got.length).take n))
    | _ => w
  | .finish r =>
    match w.readers r with
    | .reading ino got => if (w.data ino).length ≤ got.length then w.setReader r (.done got) else w
    | _ => w

/-- A history. -/
def DumpFS.run (path : Str) (w : DumpFS) (events : List DumpEvent) : DumpFS := events.foldl (DumpFS.step path) w

/-- What someone opening this name finds. -/
def DumpFS.content (w : DumpFS) (name : Str) : Option Str := (w.names name).map w.data

end KD

/-
A process which opens a run while nothing else happens: its steps, and the same as one function after another.
-/
import Verif.Model.FilesMapHistory

namespace KD.Spec

variable {V : Type}

/-- What is decided outside the program: whether the collection can be made, and what comes of writing each cache file. -/
def outcomeAt (making : R Unit) (attempt : Nat → R Unit) : Phase → R Unit
  | .opening [] _ => making
  | .writing pos _ => attempt pos
  | _ => .ok ()

/-- From the first state, process `p` gets to the second one with nothing else happening. -/
inductive Alone (ncand : Nat) (making : R Unit) (attempt : Nat → R Unit) (byName : Bool) (p : Nat) :
    World V → World V → Prop
  | done {w : World V} : Alone ncand making attempt byName p w w
  | step {w w' : World V} :
      Alone ncand making attempt byName p
        (w.step ncand (.act p byName (outcomeAt making attempt (w.procs p).phase))) w' →
      Alone ncand making attempt byName p w w'

/-- What `save` is given for an open file. -/
def toSave (w : World V) (f : FileAccess V) : SaveFile :=
  ⟨true, f.filename, (match w.statAt f.filename with | some st => .ok st | none => .error .fileNotFound),
    ⟨f.trainIds, f.controlSources, f.instrumentSources⟩⟩

/-- `load`, then opening all files, then `save`: the files opened, and the cache document written with its place. -/
def oneAfterAnother (w : World V) (ncand : Nat) (names : List Str) (making : R Unit) (attempt : Nat → R Unit) :
    R (List (FileAccess V) × Option (Nat × List MapInfo)) :=
  match FilesMap.load ((List.range ncand).map w.caches) w.statAt with
  | .error e => .error e
  | .ok m =>
    match openAll w.fileAt [] m.filesData names with
    | .error e => .error e
    | .ok results =>
      match making with
      | .error e => .error e
      | .ok () =>
        match m.save ncand attempt ((results.filterMap Except.toOption).map (toSave w)) with
        | .error e => .error e
        | .ok (_, written) => .ok (results.filterMap Except.toOption, written)

/-- The cache files after this was written. -/
def cachesAfter (caches : Nat → CacheFile) : Option (Nat × List MapInfo) → Nat → CacheFile
  | none => caches
  | some (pos, doc) => fun i => if i = pos then .document doc else caches i

end KD.Spec

/-
The cached description of data files: when it is right.
-/
import Verif.Model.FilesMap
import Verif.Spec.Collection

namespace KD.Spec

variable {V : Type}

/-- The first of the possible cache files which is a JSON document has this content. -/
def FirstDocument (candidates : List CacheFile) (infos : List MapInfo) : Prop :=
  ∃ before after, candidates = before ++ .document infos :: after ∧ ∀ c ∈ before, c = .missing ∨ c = .garbled

/-- The entry was made for this name and this modification time and size. -/
def RecordedFor (info : MapInfo) (name : Str) (st : Stat) : Prop :=
  info.filename = some name ∧ info.mtime = some st.mtime ∧ info.size = some st.size

/-- The description `ci` says what the entry says: the same train IDs and sets of sources. -/
def Describes (info : MapInfo) (ci : CacheInfo) : Prop :=
  info.trainIds = some ci.trainIds ∧
    (∃ cs, info.controlSources = some cs ∧ ∀ s, s ∈ ci.controlSources ↔ s ∈ cs) ∧
    ∃ is, info.instrumentSources = some is ∧ ∀ s, s ∈ ci.instrumentSources ↔ s ∈ is

/-- Two descriptions with the same train IDs and sets of sources. -/
def SameInfo (a b : CacheInfo) : Prop :=
  a.trainIds = b.trainIds ∧ (∀ s, s ∈ a.controlSources ↔ s ∈ b.controlSources) ∧
    ∀ s, s ∈ a.instrumentSources ↔ s ∈ b.instrumentSources

/-- All parts of the entry are there. -/
def CompleteInfo (info : MapInfo) : Prop :=
  info.filename.isSome ∧ info.mtime.isSome ∧ info.size.isSome ∧ info.trainIds.isSome ∧
    info.controlSources.isSome ∧ info.instrumentSources.isSome

/-- The entry lacks its file name, or it is about a file which is there and lacks its modification time, or its size although the
time is right. -/
def Incomplete (stat : Str → Option Stat) (info : MapInfo) : Prop :=
  info.filename = none ∨ ∃ f st, info.filename = some f ∧ stat f = some st ∧
    (info.mtime = none ∨ (info.mtime = some st.mtime ∧ info.size = none))

/-- What one finds by reading a file without the cache. -/
def readInfo (h : H5File V) : R CacheInfo :=
  match FileAccess.init [] h none with
  | .error e => .error e
  | .ok f => .ok ⟨f.trainIds, f.controlSources, f.instrumentSources⟩

/-- The entry is right about every file with the recorded name, time and size. -/
def TrueOnDisk (disk : Str → Option (DiskFile V)) (info : MapInfo) : Prop :=
  ∀ name file, disk name = some file → RecordedFor info name file.stat →
    ∃ h ci, file.content = .ok h ∧ readInfo h = .ok ci ∧ Describes info ci

/-- Two ways of opening the same file which show the same train IDs and sources. -/
def SameFile (f g : FileAccess V) : Prop :=
  f.filename = g.filename ∧ f.file = g.file ∧ f.trainIds = g.trainIds ∧
    (∀ s, s ∈ f.controlSources ↔ s ∈ g.controlSources) ∧ ∀ s, s ∈ f.instrumentSources ↔ s ∈ g.instrumentSources

/-- The path of a run below a proposal: `.../raw|proc/instrument/cycle/pNNN/rNNN`, perhaps with a '/' at the end (and
perhaps with a newline after that, which a regular expression ending with `$` allows). -/
def RunPath (word digit : Char → Bool) (path rawProc instr cycle prop run : Str) : Prop :=
  ∃ before ending pd rd : Str,
    path = before ++ '/' :: (rawProc ++ '/' :: (instr ++ '/' :: (cycle ++ '/' :: (prop ++ '/' :: (run ++ ending))))) ∧
    before ≠ [] ∧ '\n' ∉ before ∧ (rawProc = ch! "raw" ∨ rawProc = ch! "proc") ∧
    (instr ≠ [] ∧ ∀ c ∈ instr, word c = true) ∧ (cycle ≠ [] ∧ ∀ c ∈ cycle, word c = true) ∧
    (prop = 'p' :: pd ∧ pd ≠ [] ∧ ∀ c ∈ pd, digit c = true) ∧ (run = 'r' :: rd ∧ rd ≠ [] ∧ ∀ c ∈ rd, digit c = true) ∧
    (ending = [] ∨ ending = ['/'] ∨ ending = ['\n'] ∨ ending = ['/', '\n'])

end KD.Spec

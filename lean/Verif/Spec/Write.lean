/-
Writing data to a new file: which names can be written and read back, and which fields have data.
-/
import Verif.Spec.Data
import Verif.Spec.File
import Verif.Spec.ArrayOrder
import Verif.Spec.Stretch

namespace KD.Spec

variable {V : Type}

/-- Names as in the data format (docs/data_format.rst): instrument sources are `device:channel`, control sources
have no colon, keys are made of parts separated by dots, and the path of no source continues that of another one. -/
structure WellNamed (c : DC V) : Prop where
  control : ∀ source ∈ c.controlSources, ':' ∉ source
  instrument : ∀ source ∈ c.instrumentSources, ∃ device channel, PlainParts device channel ∧
    source = device ++ ch! ":" ++ channel
  keys : ∀ instr source key, HasField c instr source key → ∃ parts : List Str, parts ≠ [] ∧
    (∀ p ∈ parts, p ≠ [] ∧ '/' ∉ p ∧ '.' ∉ p) ∧ key = joinCh '.' parts
  apart : ∀ instr source key source' key', HasField c instr source key → HasField c instr source' key' →
    comps source <+: comps source' → source = source'

/-- There is an entry for the field in one of the selected trains. -/
def HasData (c : DC V) (instr : Bool) (source key : Str) : Prop :=
  ∃ t ∈ c.trainIds, ∃ g ∈ c.files, Holds g source ∧ fileEntries g instr source key t ≠ []

/-- The file `f` has, for every selected train, the entries the collection has for the field. -/
def SameEntries (c : DC V) (f : FileAccess V) (instr : Bool) (source key : Str) : Prop :=
  ∀ t ∈ c.trainIds,
    (∀ g ∈ c.files, Holds g source → t ∈ g.trainIds →
      fileEntries f instr source key t = fileEntries g instr source key t) ∧
    (¬ Covered c source t → fileEntries f instr source key t = [])

/-- Collections with the usual names and readable files: the entries of selected trains which are next to each other in a file follow each
other. There may be gaps in the data elsewhere. -/
structure Storable (c : DC V) : Prop where
  noConflict : NoConflict c.files
  trains : c.trainIds.Pairwise (· < ·)
  nonzero : 0 ∉ c.trainIds
  named : WellNamed c
  valid : ∀ instr source key, HasField c instr source key → FollowsIn c c.trainIds instr source key

/-- Collections with the usual names, where the data of all fields can be read, whatever the index. -/
structure StorableAny (c : DC V) : Prop where
  noConflict : NoConflict c.files
  trains : c.trainIds.Pairwise (· < ·)
  nonzero : 0 ∉ c.trainIds
  named : WellNamed c
  readable : ∀ instr source key, HasField c instr source key → ∀ f ∈ c.files, Holds f source →
    ReadableField f c.trainIds instr source key

/-- The conditions under which written files can be read back. -/
structure Writable (c : DC V) : Prop extends Storable c where
  inOrder : ∀ instr source key, HasField c instr source key → TrainsInOrder c instr source key

/-- Entries of different trains differ. -/
def DistinctTrains (c : DC V) (instr : Bool) (source key : Str) : Prop :=
  ∀ f ∈ c.files, ∀ g ∈ c.files, Holds f source → Holds g source → ∀ t u x, x ∈ fileEntries f instr source key t →
    x ∈ fileEntries g instr source key u → t = u

/-- Names which do not collide in one file: no key of a source continues another one, no source is in a folder named trainId, and no
instrument source is in a folder which would be part of the index of a control source. -/
structure NamesApart (c : DC V) : Prop where
  keys : ∀ instr source parts parts', HasField c instr source (joinCh '.' parts) → HasField c instr source (joinCh '.' parts') →
    (∀ p ∈ parts, p ≠ [] ∧ '/' ∉ p ∧ '.' ∉ p) → (∀ p ∈ parts', p ≠ [] ∧ '/' ∉ p ∧ '.' ∉ p) → parts <+: parts' → parts = parts'
  trainId : ∀ source ∈ c.allSources, (comps source).head? ≠ some (ch! "trainId")
  index : ∀ source ∈ c.controlSources, ∀ source' ∈ c.instrumentSources,
    ¬ comps source ++ [ch! "first"] <+: comps source' ∧ ¬ comps source ++ [ch! "count"] <+: comps source'

/-- There is exactly one entry for the field in this train. -/
def OneEntry (c : DC V) (instr : Bool) (source key : Str) (t : Nat) : Prop :=
  ∃ g ∈ c.files, Holds g source ∧ ∃ v, fileEntries g instr source key t = [v]

/-- There is no file with more than one entry for the field in this train. -/
def AtMostOneEntry (c : DC V) (instr : Bool) (source key : Str) (t : Nat) : Prop :=
  ∀ g ∈ c.files, Holds g source → (fileEntries g instr source key t).length ≤ 1

end KD.Spec

/-
The European XFEL file format, as a user knows it (docs/data_format.rst, docs/reading_files.rst), stated on file
contents and independently of how the code reads them.
-/
import Verif.Model.FileAccess

namespace KD.Spec

variable {V : Type}

/-- The data source IDs in the metadata; format 0.5 (also when no version is written) has them in another place. -/
def sourceIds (h : H5File V) : Option (List Str) :=
  match h.version with
  | none => h.sources05
  | some v => if v = ch! "0.5" then h.sources05 else h.sources10

/-- The data source ID of a control source. -/
def controlId (name : Str) : Str := ch! "CONTROL/" ++ name

/-- The data source ID of a group of an instrument source. -/
def instrumentId (device channel group : Str) : Str :=
  ch! "INSTRUMENT/" ++ device ++ ch! ":" ++ channel ++ ch! "/" ++ group

/-- The parts of a data source ID can be told apart. -/
def PlainParts (device channel : Str) : Prop := ':' ∉ device ∧ '/' ∉ channel

/-- A data source ID as found in files: padding, control or instrument. -/
def GoodId (id : Str) : Prop :=
  id = [] ∨ (∃ name, id = controlId name) ∨
    ∃ device channel group, PlainParts device channel ∧ id = instrumentId device channel group

/-- The text before the first '/' (all of it if there is none) is the given category. -/
def HasCategory (cat id : Str) : Prop := id = cat ∨ ∃ rest, id = cat ++ '/' :: rest

/-- The components of a group or source name. -/
def comps (s : Str) : Path := h5path s

end KD.Spec

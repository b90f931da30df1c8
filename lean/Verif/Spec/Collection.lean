/-
What users see of a collection: its sources, keys and conflicts.
-/
import Verif.Model.Collection

namespace KD.Spec

variable {V : Type}

/-- The file lists the source, in either category. -/
def Holds (f : FileAccess V) (source : Str) : Prop :=
  source ∈ f.controlSources ∨ source ∈ f.instrumentSources

/-- Two files do not both have data for the same source and train. -/
def Compatible (f g : FileAccess V) : Prop :=
  ∀ source t, Holds f source → Holds g source → t ∈ f.trainIds → t ∉ g.trainIds

/-- No two of the files (at different positions in the list) conflict. -/
def NoConflict (files : List (FileAccess V)) : Prop := files.Pairwise Compatible

/-- The source/key pair is available in the collection: as shown by `all_sources` and `keys_for_source`. -/
def Available (c : DC V) (source key : Str) : Prop :=
  source ∈ c.allSources ∧ ∃ ks, c.keysForSource source = .ok ks ∧ key ∈ ks

/-- The collection has this field: a control or instrument source, and one of its keys. -/
def HasField (c : DC V) (instr : Bool) (source key : Str) : Prop :=
  (if instr then source ∈ c.instrumentSources else source ∈ c.controlSources) ∧
    ∃ ks, c.keysForSource source = .ok ks ∧ key ∈ ks

/-- The keys of all sources of the collection can be listed (no file lacks the group of one of its sources). -/
def KeysReadable (c : DC V) : Prop := ∀ source ∈ c.allSources, ∃ ks, c.keysForSource source = .ok ks

/-- The selection includes the pair: the source is there, with all keys (`None`) or with this key among others. -/
def Includes (sel : Selection) (source key : Str) : Prop :=
  ∃ v, sel.get? source = some v ∧ (v = none ∨ ∃ ks, v = some ks ∧ key ∈ ks)

/-- A key matches a pattern. For control sources a trailing `.value` of the key may be left out of the pattern. -/
def KeyMatches (control : Prop) (pattern key : Str) : Prop :=
  globMatch pattern key = true ∨
    (control ∧ endsWith pattern (ch! ".value") = false ∧
      ∃ key', key = key' ++ ch! ".value" ∧ globMatch pattern key' = true)

/-- The pair matches one of the pairs of patterns. -/
def MatchesOne (c : DC V) (pats : List (Str × Str)) (source key : Str) : Prop :=
  ∃ p ∈ pats, globMatch p.1 source = true ∧ KeyMatches (source ∈ c.controlSources) p.2 key

/-- The key is listed in the file for the source. -/
def FileHasKey (f : FileAccess V) (source key : Str) : Prop := ∃ ks, f.getKeys source = .ok ks ∧ key ∈ ks

/-- All files which have a source have the same keys for it ("within a run, all files should have the same
keys for a given source", reader.py:315-318). -/
def SameKeys (files : List (FileAccess V)) : Prop :=
  ∀ f ∈ files, ∀ g ∈ files, ∀ source, Holds f source → Holds g source → ∀ key,
    FileHasKey f source key ↔ FileHasKey g source key

/-- The selected keys exist in the files. -/
def SelectedKeysExist (c : DC V) : Prop :=
  ∀ source ks, c.selection.get? source = some (some ks) → ∀ key ∈ ks, ∀ f ∈ c.files, Holds f source →
    FileHasKey f source key

/-- The argument of `select` or `deselect` names the pair: it matches one of the pairs of patterns, or it is in the dict. -/
def NamesPair (c : DC V) : SelArg → Str → Str → Prop
  | .globs pats, source, key => MatchesOne c pats source key
  | .dict l, source, key => ∃ kv ∈ l, kv.1 = source ∧ key ∈ kv.2
  | .other, _, _ => False

/-- The source matches a pattern which is used with the key pattern `*`. -/
def Starred (pats : List (Str × Str)) (source : Str) : Prop := ∃ p ∈ pats, p.2 = ch! "*" ∧ globMatch p.1 source = true

/-- What `select` brings back: keys not selected any more, but which are in the files (if the source is selected with the key pattern `*`), and
whatever a dict names. -/
def BroughtBack (c : DC V) : SelArg → Str → Str → Prop
  | .globs pats, source, key => source ∈ c.allSources ∧ Starred pats source ∧ ∃ f ∈ c.files, Holds f source ∧ FileHasKey f source key
  | .dict l, source, key => ∃ kv ∈ l, kv.1 = source ∧ key ∈ kv.2
  | .other, _, _ => False

/-- A collection a user can make: by opening files, and from there by the selecting and merging methods. -/
inductive Reachable : DC V → Prop
  | opened {opened : List (R (FileAccess V))} {c : DC V} : DC.fromPaths opened = .ok c → Reachable c
  | openedOne {opened : R (FileAccess V)} {c : DC V} : DC.fromPath opened = .ok c → Reachable c
  | select {c d : DC V} {sel : SelArg} : Reachable c → c.select sel = .ok d → Reachable d
  | deselect {c d : DC V} {sel : SelArg} : Reachable c → c.deselect sel = .ok d → Reachable d
  | selectTrains {c d : DC V} {tr : TrainRange} : Reachable c → c.selectTrains tr = .ok d → Reachable d
  | union {c d : DC V} {others : List (DC V)} {order : List (FileAccess V) → List (FileAccess V)} :
      Reachable c → (∀ o ∈ others, Reachable o) → c.union order others = .ok d → Reachable d

end KD.Spec

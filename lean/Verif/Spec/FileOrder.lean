/-
Collections which differ only in the order of their files, and results which show the same.
-/
import Verif.Spec.Data

namespace KD.Spec

variable {V : Type}

/-- What two selections say about a source is the same: it is in neither, in both with all keys (`None`), or in both with the same set
of keys. -/
inductive SameChoice : Option (Option (List Str)) → Option (Option (List Str)) → Prop
  | absent : SameChoice none none
  | allKeys : SameChoice (some none) (some none)
  | keys {a b : List Str} : (∀ k, k ∈ a ↔ k ∈ b) → SameChoice (some (some a)) (some (some b))

/-- The two selections say the same about all sources. -/
def SameSelection (a b : Selection) : Prop := ∀ source, SameChoice (a.get? source) (b.get? source)

/-- The two collections have the same files, in some order, the same trains, and the same selection. -/
structure SameContents (c d : DC V) : Prop where
  files : c.files.Perm d.files
  trains : c.trainIds = d.trainIds
  selection : SameSelection c.selection d.selection

/-- All files can list the keys of their sources. -/
def ListsKeys (files : List (FileAccess V)) : Prop :=
  ∀ f ∈ files, ∀ source, Holds f source → ∃ ks, f.getKeys source = .ok ks

/-- The two results for a train show the same sources, and for each the same metadata, keys and values. -/
structure SameTrain (m m' : Dict Str (SourceData V)) : Prop where
  sources : ∀ source, source ∈ m.keys ↔ source ∈ m'.keys
  data : ∀ source a b, m.get? source = some a → m'.get? source = some b →
    a.mdSource = b.mdSource ∧ a.mdTid = b.mdTid ∧ ∀ key, a.data.get? key = b.data.get? key

/-- A call which narrows a collection. -/
inductive NarrowCall where
  | select (sel : SelArg)
  | deselect (sel : SelArg)
  | selectTrains (tr : TrainRange)

/-- The outcome of the call. -/
def NarrowCall.run (c : DC V) : NarrowCall → R (DC V)
  | .select sel => c.select sel
  | .deselect sel => c.deselect sel
  | .selectTrains tr => c.selectTrains tr

/-- One call after the other, up to the first exception. -/
def runCalls : DC V → List NarrowCall → R (DC V)
  | c, [] => .ok c
  | c, call :: calls =>
    match call.run c with
    | .error e => .error e
    | .ok c' => runCalls c' calls

end KD.Spec

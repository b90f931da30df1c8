/-
Which entries of a file belong to a train, and what a valid data field is (docs/data_format.rst: for each train the
index says where its entries start and how many there are).
-/
import Verif.Spec.Collection

namespace KD.Spec

variable {V : Type}

/-- `l[a : a + n]`. -/
def slice {α : Type _} (l : List α) (a n : Nat) : List α := (l.drop a).take n

/-- The entries of train `t` according to an index: for the position of `t` among the train IDs, `count` rows
from `first` on. -/
def indexEntries (trainIds firsts counts : List Nat) (rows : List V) (t : Nat) : List V :=
  ((trainIds.zip (firsts.zip counts)).filter (fun x => x.1 = t)).flatMap (fun x => slice rows x.2.1 x.2.2)

/-- The name of the section of the file: instrument or control data. -/
def sectionName (instr : Bool) : Str := if instr then ch! "INSTRUMENT" else ch! "CONTROL"

/-- The group of the index for a key: the part before the first dot for instrument data, none for control data. -/
def groupName (instr : Bool) (key : Str) : Str := if instr then (partition '.' key).1 else []

/-- The entries of train `t` in a file, for a source and key. -/
def fileEntries (f : FileAccess V) (instr : Bool) (source key : Str) (t : Nat) : List V :=
  match f.getIndex source (groupName instr key), f.dataset (sectionName instr) source key with
  | .ok (firsts, counts), .ok ds => indexEntries f.trainIds firsts counts ds.rows t
  | _, _ => []

/-- Each train starts where the previous one ended. -/
def Contiguous (firsts counts : List Nat) : Prop :=
  ∀ i a n b, firsts[i]? = some a → counts[i]? = some n → firsts[i + 1]? = some b → b = a + n

/-- No train reaches beyond the data. -/
def InBounds (firsts counts : List Nat) (size : Nat) : Prop :=
  ∀ (i : Nat) a n, firsts[i]? = some a → counts[i]? = some n → a + n ≤ size

/-- A valid field of a file: at least one train, increasing train IDs, the source in one category only, and a
contiguous index for a dataset large enough. -/
structure ValidField (f : FileAccess V) (instr : Bool) (source key : Str) : Prop where
  trains : f.trainIds.Pairwise (· < ·)
  someTrain : f.trainIds ≠ []
  category : if instr then source ∈ f.instrumentSources ∧ source ∉ f.controlSources
    else source ∈ f.controlSources ∧ source ∉ f.instrumentSources
  data : ∃ firsts counts ds, f.getIndex source (groupName instr key) = .ok (firsts, counts) ∧
    f.dataset (sectionName instr) source key = .ok ds ∧
    firsts.length = f.trainIds.length ∧ counts.length = f.trainIds.length ∧
    Contiguous firsts counts ∧ InBounds firsts counts ds.rows.length

/-- A weaker condition, enough for reading single trains: the index need not be contiguous. -/
structure IndexedField (f : FileAccess V) (instr : Bool) (source key : Str) : Prop where
  trains : f.trainIds.Nodup
  category : if instr then source ∈ f.instrumentSources ∧ source ∉ f.controlSources
    else source ∈ f.controlSources ∧ source ∉ f.instrumentSources
  data : ∃ firsts counts ds, f.getIndex source (groupName instr key) = .ok (firsts, counts) ∧
    f.dataset (sectionName instr) source key = .ok ds ∧
    firsts.length = f.trainIds.length ∧ counts.length = f.trainIds.length ∧ InBounds firsts counts ds.rows.length

/-- All files of the collection which have the source have such a field. -/
def IndexedIn (c : DC V) (instr : Bool) (source key : Str) : Prop :=
  ∀ f ∈ c.files, Holds f source → IndexedField f instr source key

/-- Control data as the data format has it: one entry for each train, in order. -/
def OnePerTrain (f : FileAccess V) (source : Str) : Prop :=
  f.getIndex source [] = .ok (List.range f.trainIds.length, List.replicate f.trainIds.length 1)

/-- The index begins with the first row of the dataset. -/
def StartsAtZero (f : FileAccess V) (instr : Bool) (source key : Str) : Prop :=
  ∃ firsts counts, f.getIndex source (groupName instr key) = .ok (firsts, counts) ∧ firsts.head? = some 0

/-- Some train of the file has several entries. -/
def Several (f : FileAccess V) (instr : Bool) (source key : Str) : Prop :=
  ∃ t, 1 < (fileEntries f instr source key t).length

/-- The key with the pulse IDs for an instrument key. -/
def pulseIdKey (key : Str) : Str := (partition '.' key).1 ++ ch! ".pulseId"

/-- The data has one dimension; if some train has several entries, it has a second dimension of size 1, and the pulse IDs have a
second dimension. -/
def OneDim (f : FileAccess V) (instr : Bool) (source key : Str) : Prop :=
  (¬ Several f instr source key → ∀ d, f.dataset (sectionName instr) source key = .ok d → d.rowShape = []) ∧
  (Several f instr source key →
    (∀ d, f.dataset (sectionName instr) source key = .ok d → d.rowShape = [1]) ∧
    ∀ p, f.dataset (sectionName true) source (pulseIdKey key) = .ok p → ∃ n, p.rowShape = [n + 1])

/-- Some train of the file has an entry. -/
def SomeEntry (f : FileAccess V) (instr : Bool) (source key : Str) : Prop :=
  ∃ t, fileEntries f instr source key t ≠ []

/-- What is shown for the entries of one train: nothing, the single entry, or an array of several. -/
def shown : List V → Option (Entry V)
  | [] => none
  | [v] => some (.one v)
  | l => some (.many l)

/-- The collection has a file with data of the source for the train. -/
def Covered (c : DC V) (source : Str) (t : Nat) : Prop := ∃ f ∈ c.files, Holds f source ∧ t ∈ f.trainIds

/-- The field is valid in all the files of the collection which have the source. -/
def ValidIn (c : DC V) (instr : Bool) (source key : Str) : Prop :=
  ∀ f ∈ c.files, Holds f source → ValidField f instr source key

/-- The entries of a labelled array which are labelled with `t`, in order. -/
def labelled {W : Type} (a : LArr W) (t : Nat) : List W :=
  (((a.coords.getD []).zip a.rows).filter (fun x => x.1 = t)).map Prod.snd

/-- All entries have a label. -/
def AllLabelled {W : Type} (a : LArr W) : Prop := (a.coords.getD []).length = a.rows.length

/-- The index (first, count) says for each train where the entries labelled with it are. -/
structure IndexFor (T L firsts counts : List Nat) : Prop where
  firstsLength : firsts.length = T.length
  countsLength : counts.length = T.length
  start : T ≠ [] → firsts.head? = some 0
  contiguous : Contiguous firsts counts
  countOf : ∀ (i t : Nat), T[i]? = some t → counts[i]? = some (L.count t)
  inside : InBounds firsts counts L.length
  entries : ∀ {W : Type} (rows : List W), rows.length = L.length → ∀ t,
    indexEntries T firsts counts rows t = ((L.zip rows).filter (fun x => x.1 = t)).map Prod.snd

end KD.Spec

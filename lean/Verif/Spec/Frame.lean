/-
What a table of several columns shows.
-/
import Verif.Spec.Data
import Verif.Model.Frame

namespace KD.Spec

variable {V : Type}

/-- The cells of a column show a series: there is a cell for each row, a cell with a value has the value which the series
has for the label of its row, and a cell is missing only when the series has nothing for the label of its row. If labels
repeat in the series, the rows are just the rows of the series. -/
structure ShowsSeries (index : List (Nat × Option V)) (s : List (SeriesRow V)) (cells : List (Option V)) : Prop where
  length : cells.length = index.length
  value : ∀ (i t : Nat) (p : Option V) (v : V), index[i]? = some (t, p) → cells[i]? = some (some v) → ⟨t, p, v⟩ ∈ s
  missing : ∀ (i t : Nat) (p : Option V), index[i]? = some (t, p) → cells[i]? = some none → ∀ v, ⟨t, p, v⟩ ∉ s
  repeated : ¬ (s.map (fun r => (r.tid, r.pulse))).Nodup →
    index = s.map (fun r => (r.tid, r.pulse)) ∧ cells = s.map (fun r => some r.val)

/-- What pandas does to make the rows for two columns without repeated labels: each label of either, once. -/
def TakesUnion (join : List (Nat × Option V) → List (Nat × Option V) → List (Nat × Option V)) : Prop :=
  ∀ a b, a.Nodup → b.Nodup → (join a b).Nodup ∧ ∀ l, l ∈ join a b ↔ l ∈ a ∨ l ∈ b

/-- Columns which are all labelled by train, or all by train and pulse. -/
def SameKind (cols : List (List (SeriesRow V))) : Prop :=
  (∀ s ∈ cols, ∀ r ∈ s, r.pulse = none) ∨ ∀ s ∈ cols, ∀ r ∈ s, r.pulse ≠ none

/-- A source and key with a column in the table: available, and not a timestamp unless timestamps are wanted. -/
def InTable (c : DC V) (timestamps : Bool) (source key : Str) : Prop :=
  Available c source key ∧ (timestamps = true ∨ ¬ ∃ p, key = p ++ ch! ".timestamp")

/-- The series of the table are all labelled by train, or all by train and pulse. -/
def SameLabels (c : DC V) (timestamps : Bool) : Prop :=
  (∀ s k l, InTable c timestamps s k → c.getSeries s k = .ok l → ∀ r ∈ l, r.pulse = none) ∨
  ∀ s k l, InTable c timestamps s k → c.getSeries s k = .ok l → ∀ r ∈ l, r.pulse ≠ none

/-- No label repeats in any of the series of the table. -/
def LabelsOnce (c : DC V) (timestamps : Bool) : Prop :=
  ∀ s k l, InTable c timestamps s k → c.getSeries s k = .ok l → (l.map (fun r => (r.tid, r.pulse))).Nodup

end KD.Spec

/- Model of how `get_dataframe` puts its columns side by side (karabo_data/reader.py, `DataCollection.get_dataframe`). -/
import Verif.Model.Collection

namespace KD

variable {V : Type} [DecidableEq V]

/-- The label of a row: the train ID, with the pulse ID for pulse-resolved data, reader.py:545-546, 557-561. -/
def SeriesRow.label (r : SeriesRow V) : Nat × Option V := (r.tid, r.pulse)

/-- A table: the labels of its rows, and named columns whose cells may be missing (NaN). -/
structure DFrame (V : Type) where
  index : List (Nat × Option V)
  cols : List (Str × List (Option V))
  deriving DecidableEq, Repr

/-- The rows for two columns with different labels in `pd.concat(series, axis=1)`, reader.py:618: pandas keeps the labels
if they are the same or if one of the columns is empty, and otherwise takes the union (`Index.union`), `join` here. -/
def unionLabels (join : List (Nat × Option V) → List (Nat × Option V) → List (Nat × Option V))
    (a b : List (Nat × Option V)) : List (Nat × Option V) :=
  if b = [] ∨ a = b then a else if a = [] then b else join a b

/-- The rows of the table made by `pd.concat(series, axis=1)`, reader.py:618: the labels of all the columns taken
together, one column after another. -/
def frameIndex (join : List (Nat × Option V) → List (Nat × Option V) → List (Nat × Option V)) :
    List (List (Nat × Option V)) → List (Nat × Option V)
  | [] => []
  | a :: rest => rest.foldl (unionLabels join) a

/-- The cell of a column for a row label in `pd.concat(series, axis=1)`, reader.py:618: missing if the column does not
have the label. -/
def cellOf (s : List (SeriesRow V)) (l : Nat × Option V) : Option V :=
  (s.find? (fun r => r.label = l)).map SeriesRow.val

/-- One column brought to the rows of the table in `pd.concat(series, axis=1)` (`Series.reindex`), reader.py:618: nothing
to do when it has just these labels; a ValueError when its labels repeat. Simplification: the conversion of numbers to
floating point in a column with missing cells is not modelled. -/
def alignColumn (idx : List (Nat × Option V)) (col : Str × List (SeriesRow V)) : R (Str × List (Option V)) :=
  if col.2.map SeriesRow.label = idx then .ok (col.1, col.2.map (fun r => some r.val))
  else if (col.2.map SeriesRow.label).Nodup then .ok (col.1, idx.map (cellOf col.2))
  else .error .value

/-- `pd.concat(series, axis=1)`, reader.py:618. When some columns are labelled by train and others by train and pulse, what
happens depends on the version of pandas: `mixed` stands for it. -/
def concatColumns (join : List (Nat × Option V) → List (Nat × Option V) → List (Nat × Option V))
    (mixed : List (Str × List (SeriesRow V)) → R (DFrame V)) (cols : List (Str × List (SeriesRow V))) : R (DFrame V) :=
  if mixedLabels (cols.map Prod.snd) then mixed cols
  else
    let idx := frameIndex join (cols.map (fun col => col.2.map SeriesRow.label))
    match mapE (alignColumn idx) cols with
    | .error e => .error e
    | .ok out => .ok ⟨idx, out⟩

/-- The table returned by `get_dataframe(timestamps=timestamps)`, reader.py:611-618. -/
def DC.dataframe (join : List (Nat × Option V) → List (Nat × Option V) → List (Nat × Option V))
    (mixed : List (Str × List (SeriesRow V)) → R (DFrame V)) (c : DC V) (timestamps : Bool) : R (DFrame V) :=
  match c.getDataframe timestamps with
  | .error e => .error e
  | .ok cols => concatColumns join mixed cols

end KD

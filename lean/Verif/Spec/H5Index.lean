/-
Objects in an HDF5 file, and reading CSV.
-/
import Verif.Model.H5Index

namespace KD.Spec

/-- The object at a path. -/
def objAt : H5Obj → Path → Option H5Obj
  | o, [] => some o
  | .data _ _, _ :: _ => none
  | .group members, n :: p =>
    match members.find? (fun m => m.1 == n) with
    | none => none
    | some m => objAt m.2 p

/-- Members of a group have different names, which are not empty and have no slash. -/
def GoodNames (root : H5Obj) : Prop :=
  ∀ p members, objAt root p = some (.group members) →
    (members.map Prod.fst).Nodup ∧ ∀ m ∈ members, m.1 ≠ [] ∧ '/' ∉ m.1

/-- Where the reader of a CSV file is: in a field or before it, in quotes, or after the closing quote. -/
inductive CsvMode where
  | plain
  | quoted
  | closed

/-- Reading CSV with commas, rows ending with CR LF, fields optionally in quotes, quotes in them doubled. `cur` is what was read of the
current field, `row` the fields before it. -/
def readCsvFrom : CsvMode → Str → List Str → Str → List (List Str)
  | .plain, cur, row, [] => if cur = [] ∧ row = [] then [] else [row ++ [cur]]
  | .plain, cur, row, ',' :: s => readCsvFrom .plain [] (row ++ [cur]) s
  | .plain, cur, row, '\r' :: '\n' :: s => (row ++ [cur]) :: readCsvFrom .plain [] [] s
  | .plain, cur, row, '"' :: s => if cur = [] then readCsvFrom .quoted [] row s else readCsvFrom .plain (cur ++ ['"']) row s
  | .plain, cur, row, c :: s => readCsvFrom .plain (cur ++ [c]) row s
  | .quoted, cur, row, [] => [row ++ [cur]]
  | .quoted, cur, row, '"' :: '"' :: s => readCsvFrom .quoted (cur ++ ['"']) row s
  | .quoted, cur, row, '"' :: s => readCsvFrom .closed cur row s
  | .quoted, cur, row, c :: s => readCsvFrom .quoted (cur ++ [c]) row s
  | .closed, cur, row, [] => [row ++ [cur]]
  | .closed, cur, row, ',' :: s => readCsvFrom .plain [] (row ++ [cur]) s
  | .closed, cur, row, '\r' :: '\n' :: s => (row ++ [cur]) :: readCsvFrom .plain [] [] s
  | .closed, cur, row, c :: s => readCsvFrom .closed (cur ++ [c]) row s

/-- Reading a CSV file. -/
def readCsv (text : Str) : List (List Str) := readCsvFrom .plain [] [] text

end KD.Spec

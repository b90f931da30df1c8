/-
How to read the report of the validation tool.
-/
import Verif.Model.ValidateMain

namespace KD.Spec

/-- A line `  name: value`. -/
def readDetail (line : Str) : Str × Str :=
  ((line.drop 2).takeWhile (· ≠ ':'), ((line.drop 2).dropWhile (· ≠ ':')).drop 2)

/-- An empty line starts a problem, the next line is the message, and details follow up to the next empty line. -/
def readLines : List Str → List (Str × List (Str × Str))
  | [] :: msg :: rest => (msg, (rest.takeWhile (· ≠ [])).map readDetail) :: readLines (rest.dropWhile (· ≠ []))
  | _ => []
termination_by l => l.length
decreasing_by
  have := (List.dropWhile_sublist (l := rest) (fun x : Str => decide (x ≠ []))).length_le
  simp only [List.length_cons]; omega

/-- Reading a report. -/
def readReport (text : Str) : List (Str × List (Str × Str)) := readLines (splitCh '\n' text)

/-- The texts of a problem are each on one line, the names of the details have no colon, are all different, and not `msg`. -/
structure OneLine (p : ProbDict) : Prop where
  msg : '\n' ∉ p.msg
  names : ∀ x ∈ p.items, '\n' ∉ x.1 ∧ ':' ∉ x.1 ∧ x.1 ≠ ch! "msg"
  values : ∀ x ∈ p.items, '\n' ∉ x.2
  different : (p.items.map Prod.fst).Nodup

/-- The dataset in which a problem is. -/
def datasetOf : Problem → Str
  | .zeros => ch! "INDEX/trainId"
  | .notIncreasing _ _ _ => ch! "INDEX/trainId"
  | .outside d _ _ => d
  | .lengths d _ _ => d
  | .entries d _ _ => d
  | .start d => d
  | .gaps d _ _ _ _ _ => d
  | .overlaps d _ _ _ _ _ => d

end KD.Spec

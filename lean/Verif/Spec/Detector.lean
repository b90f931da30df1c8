/- The names of detector modules. -/
import Verif.Model.Py

namespace KD

/-- The text begins with `/DET/`, digits and `CH`. -/
def DetHere (s digits : Str) : Prop :=
  digits ≠ [] ∧ (∀ c ∈ digits, c.isDigit = true) ∧ ∃ tail, s = ch! "/DET/" ++ digits ++ ch! "CH" ++ tail

/-- The name of a detector module: something, then `/DET/`, digits and `CH`. -/
def DetectorName (s : Str) : Prop := ∃ d n r, s = d ++ r ∧ d ≠ [] ∧ DetHere r n

end KD

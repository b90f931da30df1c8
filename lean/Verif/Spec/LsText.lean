/-
Specification for C158, the lines of lsxfel: how a person reads a number in a column.
-/
import Verif.Model.LsText

namespace KD
namespace Spec

/-- A number in a column: blanks, then the number, together at least `w` characters, and no blanks more than needed. -/
def Column (w : Nat) (s : Str) (n : Nat) : Prop :=
  ∃ k, s = List.replicate k ' ' ++ natStr n ∧ w ≤ s.length ∧ (0 < k → s.length = w)

end Spec
end KD

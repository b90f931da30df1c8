/-
A region of interest is a selection from the whole array, by numpy's rules.
-/
import Verif.Model.Roi
import Verif.Spec.Stacking

namespace KD.Spec

variable {X : Type}

/-- A labelled array whose entries are arrays, as one array with the entries along the first dimension. -/
def wholeArr (w : LArr (List Nat → X)) : Arr (Option X) where
  dtype := w.dtype
  shape := w.rows.length :: w.rowShape
  get := fun idx => match idx with
    | [] => none
    | i :: rest => (w.rows[i]?).map (fun row => row rest)

/-- Some slice goes backwards. -/
def Backwards (ixs : List Ix) : Prop := ∃ a b s, Ix.slice a b (some s) ∈ ixs ∧ s < 0

end KD.Spec

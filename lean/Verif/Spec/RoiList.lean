/-
Regions of interest with a list of indices.
-/
import Verif.Model.RoiList
import Verif.Spec.Roi

namespace KD.Spec

/-- All integers of the region stand next to the list, with no slice or ellipsis between. -/
def Adjacent (r : ListRoi) : Prop :=
  ∃ (before : List Ix) (left right : List Int) (after : List Ix), r.pre = before ++ left.map Ix.int ∧ r.post = right.map Ix.int ++ after ∧
    ∀ i, Ix.int i ∉ before ∧ Ix.int i ∉ after

/-- Each number of the list is larger than the one before. -/
def Increasing (l : List Nat) : Prop := ∀ i j a b : Nat, i < j → l[i]? = some a → l[j]? = some b → a < b

/-- The array has no elements. -/
def NoElements {V : Type} (a : Arr V) : Prop := ¬ ∃ idx, List.Forall₂ (· < ·) idx a.shape

end KD.Spec

/- What a region of interest given by a boolean mask selects (C159). -/
import Verif.Model.RoiMask

namespace KD.Spec

/-- `ps[j]` is the place of the `j`-th `True` of the mask: these places increase, and all places with `True` are among them. -/
structure TruePlaces (mask : List Bool) (ps : List Nat) : Prop where
  increase : ps.Pairwise (· < ·)
  all : ∀ i, i ∈ ps ↔ mask[i]? = some true

/-- The mask is as long as the dimension it stands for. This is counted from the first dimension, or from the last if there is an
ellipsis before the mask. -/
def MaskFits (r : MaskRoi) (shape : List Nat) : Prop :=
  (.ellipsis ∉ r.pre ∧ shape[r.pre.length]? = some r.mask.length) ∨ (.ellipsis ∈ r.pre ∧ shape.reverse[r.post.length]? = some r.mask.length)

end KD.Spec

/- Where the frames of a detector are, for virtual CXI files. -/
import Verif.Spec.Components
import Verif.Model.Cxi

namespace KD.Spec

variable {V : Type}

/-- In a file of the collection, the value `v` of the key belongs to frame number `k` of train `t` of the source. -/
def FrameAt (c : DC V) (source key : Str) (t k : Nat) (v : V) : Prop :=
  ∃ f ∈ c.files, Holds f source ∧ (fileEntries f true source key t)[k]? = some v

/-- Row `r` is for frame number `k` of train `t`, when all trains have `F` frames, in the order `T`. -/
def RowOf (T : List Nat) (F r t k : Nat) : Prop := ∃ i : Nat, T[i]? = some t ∧ k < F ∧ r = i * F + k

end KD.Spec

/- Which trains of a file are read in one go, and when reading files one run of trains after another mixes up the order. -/
import Verif.Spec.Data

namespace KD.Spec

variable {V : Type}

/-- `s` and `t` are trains of the file, `s` not after `t`, and no train of the file from `s` to `t` is left out by the selection. -/
def SameRun (c : DC V) (f : FileAccess V) (s t : Nat) : Prop :=
  s ∈ f.trainIds ∧ t ∈ f.trainIds ∧ s ≤ t ∧ ∀ u ∈ f.trainIds, s ≤ u → u ≤ t → u ∈ c.trainIds

/-- Two files have trains of the source in the wrong order: `v` has data in `f`, `u` in `g`, `u` comes first, but the run of selected
trains of `f` in which `v` is begins before the run of `g` in which `u` is. -/
def Interleaved (c : DC V) (instr : Bool) (source key : Str) (f g : FileAccess V) : Prop :=
  ∃ u v, u < v ∧ fileEntries f instr source key v ≠ [] ∧ fileEntries g instr source key u ≠ [] ∧
    ∃ s, SameRun c f s v ∧ SameRun c g u u ∧ ∀ s', SameRun c g s' u → s < s'

/-- No two files have trains of the source in the wrong order. -/
def TrainsInOrder (c : DC V) (instr : Bool) (source key : Str) : Prop :=
  ∀ f ∈ c.files, ∀ g ∈ c.files, Holds f source → Holds g source → ¬ Interleaved c instr source key f g

end KD.Spec

/-
Detector objects which differ only in the order of the files behind them.
-/
import Verif.Spec.FileOrder
import Verif.Spec.Components

namespace KD.Spec

variable {V : Type}

/-- The two detector objects have the same name, modules, number of frames per train, trains, and the same files, in some order. -/
structure SameDetector (d d' : Det V) : Prop where
  name : d.name = d'.name
  modules : ∀ x, x ∈ d.sourceToModno ↔ x ∈ d'.sourceToModno
  frames : d.framesPerTrain = d'.framesPerTrain
  data : SameContents d.data d'.data

/-- The files with the source agree on the shape of one entry of the key. -/
def OneShape (files : List (FileAccess V)) (source key : Str) : Prop :=
  ∀ f ∈ files, ∀ g ∈ files, Holds f source → Holds g source → ∀ a b, f.dataset (ch! "INSTRUMENT") source key = .ok a →
    g.dataset (ch! "INSTRUMENT") source key = .ok b → a.rowShape = b.rowShape

end KD.Spec

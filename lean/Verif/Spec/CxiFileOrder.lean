/- When all files are fit for a virtual CXI file, and when two such files have the same contents. -/
import Verif.Spec.Cxi

namespace KD.Spec

variable {V : Type}

/-- The two tables have the same size and the same entries. -/
structure SameGrid (g g' : Grid (Option V)) : Prop where
  rows : g.rows = g'.rows
  cols : g.cols = g'.cols
  cells : ∀ r col, r < g.rows → col < g.cols → g.cell r col = g'.cell r col

/-- The two virtual datasets have the same name, entries of the same shape, and the same entries. -/
structure SameLayout (l l' : Layout V) : Prop where
  name : l.name = l'.name
  rowShape : l.rowShape = l'.rowShape
  grid : SameGrid l.grid l'.grid

/-- The two CXI files have the same contents. -/
structure SameCxi (x x' : Cxi V) : Prop where
  experimentIds : x.experimentIds = x'.experimentIds
  pulseIds : x.pulseIds = x'.pulseIds
  trainIds : x.trainIds = x'.trainIds
  dataGain : x.dataGain = x'.dataGain
  modules : x.modules = x'.modules
  layouts : List.Forall₂ SameLayout x.layouts x'.layouts

end KD.Spec

/- The whole detector is moved. -/
import Verif.Spec.Geometry

namespace KD.Geo.Spec

variable {K : Type} [Field K] [LinearOrder K] [IsStrictOrderedRing K] [FloorRing K]

/-- All tiles are moved by the same vector; nothing else changes. -/
def moved (g : Geom K) (v : Vec K) : Geom K :=
  { g with modules := g.modules.map (List.map (fun f => { f with corner := ⟨f.corner.x + v.x, f.corner.y + v.y, f.corner.z + v.z⟩ })) }

/-- The number is not half way between two integers. -/
def NotHalf (x : K) : Prop := ∀ n : Int, x ≠ n + 1 / 2

/-- Moving by `a` pixels (of width px) keeps the way the coordinate `x` is rounded: `a` is even, or there is no tie. -/
def KeepsRounding (a : Int) (x px : K) : Prop := a % 2 = 0 ∨ NotHalf (x / px)

end KD.Geo.Spec

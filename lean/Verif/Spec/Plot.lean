/-
What is meant by the properties of plots of detectors.
-/
import Verif.Model.Plot
import Verif.Spec.Geometry

namespace KD.Geo.Spec

variable {V : Type} {K : Type} [Field K] [LinearOrder K] [IsStrictOrderedRing K] [FloorRing K]

/-- Where an image of n equally wide columns which is drawn from `lo` to `hi` has the left edge of column k (for k = n, the right edge of
the last column). -/
def edge (lo hi : K) (n k : Nat) : K := lo + (k : K) * ((hi - lo) / n)

/-- `axis_units` are pixels or metres. -/
def Units (units : Str) : Prop := units = ch! "px" ∨ units = ch! "m"

/-- The size of a pixel, in metres. -/
def pixel : Det → K
  | .agipd => 200 / 1000000
  | .lpd => 500 / 1000000
  | .dssc => 236 / 1000000

/-- One unit of the axes, in metres. -/
def axisUnit (d : Det) (units : Str) : K := if units = ch! "m" then 1 else pixel d

/-- A point of the detector on axes with a unit. -/
def onAxes (unit : K) (v : Vec K) : K × K := (v.x / unit, v.y / unit)

/-- The four corners of a tile, one after the other around it. -/
def outline (unit : K) (f : Frag K) : List (K × K) :=
  [onAxes unit (point f 0 0), onAxes unit (point f 0 f.fsPixels), onAxes unit (point f f.ssPixels f.fsPixels),
   onAxes unit (point f f.ssPixels 0)]

/-- The middle of a tile. -/
def middle (unit : K) (f : Frag K) : K × K := onAxes unit (point f (f.ssPixels / 2) (f.fsPixels / 2))

/-- The name of module m: quadrants of four modules. -/
def moduleName (m : Nat) : Str := ch! "Q" ++ natStr (m / 4 + 1) ++ ch! "M" ++ natStr (m % 4 + 1)

/-- The name of the tile t. -/
def tileLabel (t : Nat) : Str := ch! "T" ++ natStr (t + 1)

/-- The tile on which the name of its module is written, and the tiles which have a label (all counted from 0). -/
def named : Det → Nat × List Nat
  | .agipd => (4, [0, 7])
  | .lpd => (0, [7, 8, 15])
  | .dssc => (0, [1])

/-- The first corner of a tile, or the one opposite to it. -/
def IsEnd (opposite : Bool) (f : Frag K) (v : Vec K) : Prop :=
  v = if opposite then point f f.ssPixels f.fsPixels else point f 0 0

end KD.Geo.Spec

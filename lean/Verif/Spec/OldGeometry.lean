/-
What is meant by the positions in the deprecated LPD geometry.
-/
import Verif.Model.OldGeometry
import Verif.Spec.Geometry

namespace KD.Geo.Spec

variable {V : Type} {K : Type} [Field K] [LinearOrder K] [IsStrictOrderedRing K] [FloorRing K]

/-- The fragment `f` is found by the names, and (x, y) is the sum of all offsets on the way. -/
inductive At : OldFrag K → List Str → OldFrag K → K → K → Prop where
  | here (o : K × K) (ch : List (Str × OldFrag K)) : At (.node o ch) [] (.node o ch) o.1 o.2
  | child (o : K × K) (ch : List (Str × OldFrag K)) (name : Str) (c : OldFrag K) (rest : List Str) (f : OldFrag K) (x y : K)
      (hc : (name, c) ∈ ch) (h : At c rest f x y) : At (.node o ch) (name :: rest) f (o.1 + x) (o.2 + y)

/-- The children of every fragment have different names (as in a dict). -/
inductive IsDict : OldFrag K → Prop where
  | node (o : K × K) (ch : List (Str × OldFrag K)) (h : (ch.map Prod.fst).Nodup) (hc : ∀ c ∈ ch, IsDict c.2) : IsDict (.node o ch)

/-- There is a fragment without children at the path; (x, y) is its position. -/
def Leaf (g : OldFrag K) (path : List Str) (x y : K) : Prop := ∃ o, At g path (.node o []) x y

/-- The names of quadrant, module and tile: `Q1` to `Q4`, `M1` to `M4` and `T01` to `T16`. -/
def oldTile (channel tile : Nat) : List Str :=
  [ch! "Q" ++ Nat.toDigits 10 (channel / 4 + 1), ch! "M" ++ Nat.toDigits 10 (channel % 4 + 1),
   ch! "T" ++ (if tile + 1 < 10 then ch! "0" else []) ++ Nat.toDigits 10 (tile + 1)]

/-- The geometry has all tiles of an LPD detector. -/
def OldComplete (g : OldFrag K) : Prop := ∀ c t, c < 16 → t < 16 → ∃ x y, Leaf g (oldTile c t) x y

/-- The pixel (i, j) of module c is at (row, column) of the image: tiles are turned by 180 degrees, and begin at the pixel in which
their position is (half a millimetre), counted from the centre (x, y). -/
def OldCovers (g : OldFrag K) (centre : Int × Int) (c i j : Nat) (row col : Int) : Prop :=
  c < 16 ∧ i < 256 ∧ j < 256 ∧ ∃ x y, Leaf g (oldTile c (tileOf .lpd i j)) x y ∧
    row = ⌊y / (5 / 10000)⌋ + centre.2 + (31 - (i % 32 : Nat)) ∧ col = ⌊x / (5 / 10000)⌋ + centre.1 + (127 - (j % 128 : Nat))

end KD.Geo.Spec

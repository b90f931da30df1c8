/-
What is meant by the properties of detector geometry, in the words of a user of the detectors.
-/
import Verif.Model.Geometry

namespace KD.Geo.Spec

variable {V : Type} {K : Type} [Field K] [LinearOrder K] [IsStrictOrderedRing K] [FloorRing K]

/-- The number of modules, and the slow-scan and fast-scan pixels of a module. -/
def shape : Det → Nat × Nat × Nat
  | .agipd => (16, 512, 128)
  | .lpd => (16, 256, 256)
  | .dssc => (16, 128, 512)

/-- The number of tiles of a module. -/
def tiles : Det → Nat
  | .agipd => 8
  | .lpd => 16
  | .dssc => 2

/-- The slow-scan and fast-scan pixels of a tile. -/
def tileShape : Det → Nat × Nat
  | .agipd => (64, 128)
  | .lpd => (32, 128)
  | .dssc => (128, 256)

/-- The tile (numbered from 0) to which the pixel in row i and column j of a module belongs. AGIPD: 8 tiles of 64 rows.
LPD: tiles of 32 rows and 128 columns; those of the first 128 columns are counted backwards, then those of the other
columns forwards. DSSC: 2 tiles of 256 columns. -/
def tileOf : Det → Nat → Nat → Nat
  | .agipd, i, _ => i / 64
  | .lpd, i, j => if j < 128 then 7 - i / 32 else 8 + i / 32
  | .dssc, _, j => j / 256

/-- Where the pixel in row i and column j of a module is in its tile. -/
def inTile (d : Det) (i j : Nat) : Nat × Nat := (i % (tileShape d).1, j % (tileShape d).2)

/-- A pixel is in a region. -/
def InRegion (r : Region) (i j : Nat) : Prop := r.y0 ≤ i ∧ i < r.y1 ∧ r.x0 ≤ j ∧ j < r.x1

/-- The two arrays are the same: the same shape and the same elements. -/
def Same (p q : Plane V) : Prop := p.h = q.h ∧ p.w = q.w ∧ ∀ i j, i < p.h → j < p.w → p.get i j = q.get i j

/-- The part of an array in a region. -/
def part (p : Plane V) (r : Region) : Plane V := ⟨r.y1 - r.y0, r.x1 - r.x0, fun i j => p.get (r.y0 + i) (r.x0 + j)⟩

/-- A step of one cell along an axis; pairs are (y, x). -/
def UnitStep (v : Int × Int) : Prop := v = (0, 1) ∨ v = (0, -1) ∨ v = (1, 0) ∨ v = (-1, 0)

/-- The two steps are along different axes: one of the 8 ways to lay a tile on the grid. -/
def AxisAligned (ss fs : Int × Int) : Prop := UnitStep ss ∧ UnitStep fs ∧ (ss.1 = 0 ↔ fs.1 ≠ 0)

/-- The vertex of the grid reached from a corner by i slow-scan and j fast-scan steps. -/
def vertex (corner ss fs : Int × Int) (i j : Int) : Int × Int :=
  (corner.1 + i * ss.1 + j * fs.1, corner.2 + i * ss.2 + j * fs.2)

/-- The cell of the grid covered by pixel (i, j): between the vertices (i, j) and (i + 1, j + 1). A cell is known by its
lowest y and x. -/
def cell (corner ss fs : Int × Int) (i j : Nat) : Int × Int :=
  (min (vertex corner ss fs i j).1 (vertex corner ss fs (i + 1) (j + 1)).1,
   min (vertex corner ss fs i j).2 (vertex corner ss fs (i + 1) (j + 1)).2)

/-- n is the integer nearest to x; for two of them it is the even one. -/
def Nearest (x : K) (n : Int) : Prop := |x - n| ≤ 1 / 2 ∧ (|x - n| = 1 / 2 → n % 2 = 0)

/-- The point reached from the corner of a tile by s slow-scan and f fast-scan pixels. -/
def point (t : Frag K) (s f : K) : Vec K :=
  ⟨t.corner.x + s * t.ss.x + f * t.fs.x, t.corner.y + s * t.ss.y + f * t.fs.y, t.corner.z + s * t.ss.z + f * t.fs.z⟩

/-- Where the pixel in row i and column j of a tile is, in slow-scan and fast-scan pixels from the corner of the tile: its
centre, or its first corner. Pixels of AGIPD and LPD are squares. Pixels of DSSC are hexagons, 4/3 of a row high and
overlapping the next row; every second row is half a pixel back. -/
def pixelAt (d : Det) (centre : Bool) (i j : Nat) : K × K :=
  let mid : K × K := if d = .dssc then (2 / 3, 1 / 2) else (1 / 2, 1 / 2)
  let back : K := if d = .dssc ∧ i % 2 = 1 then 1 / 2 else 0
  if centre then ((i : K) + mid.1, (j : K) - back + mid.2) else ((i : K), (j : K) - back)

/-- The corners of a pixel, from its first corner. -/
def corners : Det → List (K × K)
  | .dssc => [(0, 1 / 2), (1 / 3, 1), (1, 1), (4 / 3, 1 / 2), (1, 0), (1 / 3, 0)]
  | _ => [(0, 0), (1, 0), (1, 1), (0, 1)]

/-- The geometry has all modules and tiles of its detector. -/
def Complete (g : Geom K) : Prop := g.modules.length = (shape g.det).1 ∧ ∀ m ∈ g.modules, m.length = tiles g.det

/-- The tiles have the number of pixels which the data have. -/
def RightSize (g : Geom K) : Prop :=
  ∀ m ∈ g.modules, ∀ f ∈ m, f.ssPixels = (tileShape g.det).1 ∧ f.fsPixels = (tileShape g.det).2

/-- The tile t of module m. -/
def IsTile (g : Geom K) (m t : Nat) (f : Frag K) : Prop := ∃ mod, g.modules[m]? = some mod ∧ mod[t]? = some f

/-- The point (x, y) is inside the tile (seen along z). -/
def Inside (f : Frag K) (x y : K) : Prop :=
  ∃ s t : K, 0 < s ∧ s < f.ssPixels ∧ 0 < t ∧ t < f.fsPixels ∧ x = (point f s t).x ∧ y = (point f s t).y

/-- On a grid of cells with the shape px (x, y), the corner of the tile is nearest to the vertex c, and its steps are nearest
to the steps ss and fs along the axes; pairs of integers are (y, x). -/
def Snaps (px : K × K) (f : Frag K) (c ss fs : Int × Int) : Prop :=
  Nearest (f.corner.y / px.2) c.1 ∧ Nearest (f.corner.x / px.1) c.2 ∧ Nearest (f.ss.y / px.2) ss.1 ∧
    Nearest (f.ss.x / px.1) ss.2 ∧ Nearest (f.fs.y / px.2) fs.1 ∧ Nearest (f.fs.x / px.1) fs.2 ∧ AxisAligned ss fs

/-- The pixel in row i and column j of the tile t of module m covers a cell of the grid. -/
def TileCovers (g : Geom K) (px : K × K) (m t i j : Nat) (yx : Int × Int) : Prop :=
  ∃ f c ss fs, IsTile g m t f ∧ Snaps px f c ss fs ∧ i < (tileShape g.det).1 ∧ j < (tileShape g.det).2 ∧ yx = cell c ss fs i j

/-- The pixel in row i and column j of module m covers a cell of the grid. -/
def Covers (g : Geom K) (px : K × K) (m i j : Nat) (yx : Int × Int) : Prop :=
  i < (shape g.det).2.1 ∧ j < (shape g.det).2.2 ∧
    TileCovers g px m (tileOf g.det i j) (inTile g.det i j).1 (inTile g.det i j).2 yx

/-- Every tile is close to one of the 8 ways to lay a tile on the grid. -/
def AllSnap (g : Geom K) (px : K × K) : Prop := ∀ m ∈ g.modules, ∀ f ∈ m, ∃ c ss fs, Snaps px f c ss fs

/-- No two pixels cover the same cell. -/
def NoOverlap (g : Geom K) (px : K × K) : Prop :=
  ∀ m i j m' i' j' yx, Covers g px m i j yx → Covers g px m' i' j' yx → m = m' ∧ i = i' ∧ j = j'

/-- Tile t' of module m' comes after tile t of module m. -/
def Later (m t m' t' : Nat) : Prop := m < m' ∨ (m = m' ∧ t < t')

/-- The steps of the tile are exactly one cell of the grid, along the axes (any z). -/
def Exact (px : K × K) (f : Frag K) : Prop :=
  ∃ ss fs, AxisAligned ss fs ∧ f.ss.x = (ss.2 : K) * px.1 ∧ f.ss.y = (ss.1 : K) * px.2 ∧ f.fs.x = (fs.2 : K) * px.1 ∧
    f.fs.y = (fs.1 : K) * px.2

/-- Seen along z, no point is inside both tiles. -/
def Apart (f f' : Frag K) : Prop := ¬ ∃ x y, Inside f x y ∧ Inside f' x y

/-- The image `img`, which had the values of `start` before, is the assembled detector; a cell (y, x) of the grid is at
(y + c.1, x + c.2) in the image. Where tiles overlap, the last one is seen. -/
structure Assembled (g : Geom K) (px : K × K) (data : Stack V) (start img : Plane V) (c : Int × Int) : Prop where
  height : img.h = start.h
  width : img.w = start.w
  /-- every pixel is inside the image -/
  inside : ∀ m i j yx, Covers g px m i j yx → 0 ≤ yx.1 + c.1 ∧ yx.1 + c.1 < img.h ∧ 0 ≤ yx.2 + c.2 ∧ yx.2 + c.2 < img.w
  /-- the image is not larger than needed: there are pixels in the first and last row and column -/
  top : ∃ m i j yx, Covers g px m i j yx ∧ yx.1 + c.1 = 0
  bottom : ∃ m i j yx, Covers g px m i j yx ∧ yx.1 + c.1 + 1 = img.h
  left : ∃ m i j yx, Covers g px m i j yx ∧ yx.2 + c.2 = 0
  right : ∃ m i j yx, Covers g px m i j yx ∧ yx.2 + c.2 + 1 = img.w
  /-- a pixel which is not below another tile is shown -/
  shown : ∀ m i j (y x : Nat), Covers g px m i j ((y : Int) - c.1, (x : Int) - c.2) →
    (∀ m' i' j', Later m (tileOf g.det i j) m' (tileOf g.det i' j') → ¬ Covers g px m' i' j' ((y : Int) - c.1, (x : Int) - c.2)) →
    img.get y x = data.get m i j
  /-- other cells are not changed -/
  rest : ∀ y x : Nat, y < img.h → x < img.w → (∀ m i j, ¬ Covers g px m i j ((y : Int) - c.1, (x : Int) - c.2)) →
    img.get y x = start.get y x

end KD.Geo.Spec

/-
Detector geometry: /repo/karabo_data/geometry2/__init__.py, and the splitting of modules in the deprecated
/repo/karabo_data/geometry.py.

Lengths are elements of an arbitrary linearly ordered field `K` with a floor function (so the theorems hold for rational
and for real numbers); floating point rounding is not modelled. Arrays have the last two dimensions only: an element is of
an arbitrary type `V`, which may itself be an array over the leading dimensions (`...` in the code).
Plotting (`inspect`, `compare`, `plot_data*`) is in Model/Plot.lean.
-/
import Verif.Model.Py
import Mathlib.Algebra.Order.Floor.Ring
import Mathlib.Algebra.Order.Field.Basic

namespace KD.Geo

variable {V : Type} {K : Type} [Field K] [LinearOrder K] [IsStrictOrderedRing K] [FloorRing K]

/-! ### Two-dimensional numpy arrays (the documented meaning of the numpy operations) -/

/-- An array of `h` rows and `w` columns. Only the elements inside mean anything. -/
structure Plane (V : Type) where
  h : Nat
  w : Nat
  get : Nat → Nat → V

/-- `np.split(p, n, axis=-2)`: ValueError unless the number of rows is a multiple of n. -/
def Plane.splitRows (p : Plane V) (n : Nat) : R (List (Plane V)) :=
  if p.h % n = 0 then
    .ok ((List.range n).map (fun k => ⟨p.h / n, p.w, fun i j => p.get (k * (p.h / n) + i) j⟩))
  else .error .value

/-- `np.split(p, n, axis=-1)`. -/
def Plane.splitCols (p : Plane V) (n : Nat) : R (List (Plane V)) :=
  if p.w % n = 0 then
    .ok ((List.range n).map (fun k => ⟨p.h, p.w / n, fun i j => p.get i (k * (p.w / n) + j)⟩))
  else .error .value

/-- `p.swapaxes(-1, -2)`. -/
def Plane.swapaxes (p : Plane V) : Plane V := ⟨p.w, p.h, fun i j => p.get j i⟩

/-- `p[..., ::a, ::b]`. -/
def Plane.stride (p : Plane V) (a b : Int) : R (Plane V) :=
  match slicePositions none none (some a) p.h with
  | .error e => .error e
  | .ok rows =>
    match slicePositions none none (some b) p.w with
    | .error e => .error e
    | .ok cols => .ok ⟨rows.length, cols.length, fun i j => p.get (rows.getD i 0) (cols.getD j 0)⟩

/-- Can a dimension of size s be assigned to one of size n (numpy broadcasting)? -/
def broadcasts (s n : Nat) : Bool := s = n || s = 1

/-- `out[..., y0:y1, x0:x1] = src`: the new content of `out`; ValueError if the shapes cannot be broadcast. -/
def Plane.assign (out : Plane V) (y0 y1 x0 x1 : Int) (src : Plane V) : R (Plane V) :=
  match slicePositions (some y0) (some y1) none out.h with
  | .error e => .error e
  | .ok rows =>
    match slicePositions (some x0) (some x1) none out.w with
    | .error e => .error e
    | .ok cols =>
      if broadcasts src.h rows.length && broadcasts src.w cols.length then
        .ok ⟨out.h, out.w, fun i j =>
          if i ∈ rows ∧ j ∈ cols then
            src.get (if src.h = 1 then 0 else rows.idxOf i) (if src.w = 1 then 0 else cols.idxOf j)
          else out.get i j⟩
      else .error .value

/-- An array of `n` planes; `dtype` is a number standing for the dtype. -/
structure Stack (V : Type) where
  dtype : Nat
  n : Nat
  h : Nat
  w : Nat
  get : Nat → Nat → Nat → V

/-- `data[..., i, :, :]`. -/
def Stack.plane (d : Stack V) (i : Nat) : R (Plane V) :=
  if i < d.n then .ok ⟨d.h, d.w, d.get i⟩ else .error .index

/-- `data[m, y0:y1, x0:x1] = src`. -/
def Stack.assign (d : Stack V) (m : Nat) (y0 y1 x0 x1 : Int) (src : Plane V) : R (Stack V) :=
  match d.plane m with
  | .error e => .error e
  | .ok p =>
    match p.assign y0 y1 x0 x1 src with
    | .error e => .error e
    | .ok q => .ok { d with get := fun k i j => if k = m then q.get i j else d.get k i j }

/-- `np.around(x).astype(int)`: to the nearest integer, halves to the even one. The limits of int32 are not modelled. -/
def around (x : K) : Int :=
  if x - (⌊x⌋ : K) < 1 / 2 then ⌊x⌋
  else if 1 / 2 < x - (⌊x⌋ : K) then ⌊x⌋ + 1
  else if ⌊x⌋ % 2 = 0 then ⌊x⌋ else ⌊x⌋ + 1

/-- `x.astype(int)` for floats: towards zero. -/
def truncate (x : K) : Int := if 0 ≤ x then ⌊x⌋ else ⌈x⌉

/-- A vector (x, y, z). -/
@[ext] structure Vec (K : Type) where
  x : K
  y : K
  z : K
  deriving DecidableEq

/-- `a + b` for arrays of three numbers. -/
def Vec.add (a b : Vec K) : Vec K := ⟨a.x + b.x, a.y + b.y, a.z + b.z⟩

/-- `a - b`. -/
def Vec.sub (a b : Vec K) : Vec K := ⟨a.x - b.x, a.y - b.y, a.z - b.z⟩

/-- `a * k` for a number k. -/
def Vec.smul (k : K) (a : Vec K) : Vec K := ⟨a.x * k, a.y * k, a.z * k⟩

/-- `a / k` for a number k. -/
def Vec.div (a : Vec K) (k : K) : Vec K := ⟨a.x / k, a.y / k, a.z / k⟩

/-! ### The detector classes -/

/-- AGIPD_1MGeometry, LPD_1MGeometry and DSSC_1MGeometry, geometry2/__init__.py:593, 1018, 1304. -/
inductive Det where
  | agipd | lpd | dssc
  deriving DecidableEq, Repr

/-- `pixel_size`, geometry2/__init__.py:601, 1026, 1313. -/
def Det.pixelSize : Det → K
  | .agipd => 2 / 10000
  | .lpd => 5 / 10000
  | .dssc => 236 / 1000000

/-- `frag_ss_pixels`, geometry2/__init__.py:602, 1027, 1314. -/
def Det.ssPixels : Det → Nat
  | .agipd => 64
  | .lpd => 32
  | .dssc => 128

/-- `frag_fs_pixels`, geometry2/__init__.py:603, 1028, 1315. -/
def Det.fsPixels : Det → Nat
  | .agipd => 128
  | .lpd => 128
  | .dssc => 256

/-- `n_modules`, geometry2/__init__.py:605, 1029, 1316. -/
def Det.nModules : Det → Nat
  | .agipd => 16
  | .lpd => 16
  | .dssc => 16

/-- `n_tiles_per_module`, geometry2/__init__.py:606, 1030, 1317. -/
def Det.nTiles : Det → Nat
  | .agipd => 8
  | .lpd => 16
  | .dssc => 2

/-- `expected_data_shape`, geometry2/__init__.py:604, 1031, 1318. -/
def Det.dataShape : Det → Nat × Nat × Nat
  | .agipd => (16, 512, 128)
  | .lpd => (16, 256, 256)
  | .dssc => (16, 128, 512)

/-- A part of a module array: rows y0 to y1, columns x0 to x1 (excluded), as two slices. -/
structure Region where
  y0 : Nat
  y1 : Nat
  x0 : Nat
  x1 : Nat
  deriving DecidableEq, Repr

/-- `_tile_slice`, geometry2/__init__.py:860-867 (AGIPD), 1228-1239 (LPD), 1472-1477 (DSSC). -/
def Det.tileSlice : Det → Nat → Region
  | .agipd, t => ⟨t * Det.agipd.ssPixels, t * Det.agipd.ssPixels + Det.agipd.ssPixels, 0, Det.agipd.fsPixels⟩
  | .lpd, t =>
    if t < 8 then ⟨(7 - t) * 32, (7 - t) * 32 + Det.lpd.ssPixels, 0, 128⟩
    else ⟨(t - 8) * 32, (t - 8) * 32 + Det.lpd.ssPixels, 128, 256⟩
  | .dssc, t => ⟨0, Det.dssc.ssPixels, t * Det.dssc.fsPixels, t * Det.dssc.fsPixels + Det.dssc.fsPixels⟩

/-- `split_tiles`, geometry2/__init__.py:855-858 (AGIPD), 1221-1226 (LPD), 1446-1449 (DSSC). -/
def Det.splitTiles : Det → Plane V → R (List (Plane V))
  | .agipd, p => p.splitRows 8
  | .lpd, p =>
    match p.splitCols 2 with
    | .error e => .error e
    | .ok halves =>
      match halves with
      | [half1, half2] =>
        match half1.splitRows 8 with
        | .error e => .error e
        | .ok a =>
          match half2.splitRows 8 with
          | .error e => .error e
          | .ok b => .ok (a.reverse ++ b)
      | _ => .error .value
  | .dssc, p => p.splitCols 2

/-- `_module_coords_to_tile`, geometry2/__init__.py:869-872 (AGIPD), 1241-1252 (LPD), 467-470 (DSSC: not implemented),
for one position. `np.divmod` rounds down. The limits of int16 are not modelled. -/
def Det.coordsToTile : Det → K → K → R (Int × K × K)
  | .agipd, ss, fs =>
    let n : Int := ⌊ss / (Det.agipd.ssPixels : K)⌋
    .ok (n, ss - n * Det.agipd.ssPixels, fs)
  | .lpd, ss, fs =>
    let across : Int := ⌊fs / (Det.lpd.fsPixels : K)⌋
    let up : Int := ⌊ss / (Det.lpd.ssPixels : K)⌋
    .ok ((1 - across) * (7 - up) + across * (up + 8), ss - up * Det.lpd.ssPixels, fs - across * Det.lpd.fsPixels)
  | .dssc, _, _ => .error .notImplemented

/-! ### Tiles -/

/-- `GeometryFragment`, geometry2/__init__.py:15-31. -/
structure Frag (K : Type) where
  corner : Vec K
  ss : Vec K
  fs : Vec K
  ssPixels : Int
  fsPixels : Int
  deriving DecidableEq

/-- `corners`, geometry2/__init__.py:43-49. -/
def Frag.corners (f : Frag K) : List (Vec K) :=
  [f.corner,
   f.corner.add (f.fs.smul f.fsPixels),
   (f.corner.add (f.ss.smul f.ssPixels)).add (f.fs.smul f.fsPixels),
   f.corner.add (f.ss.smul f.ssPixels)]

/-- `centre`, geometry2/__init__.py:51-56. -/
def Frag.centre (f : Frag K) : Vec K :=
  (f.corner.add ((f.ss.smul (1 / 2)).smul f.ssPixels)).add ((f.fs.smul (1 / 2)).smul f.fsPixels)

/-- `GridGeometryFragment`, geometry2/__init__.py:74-117; pairs are (y, x). `swap`, `order0` and `order1` say what the
`transform` function does: transpose or not, and the steps of the two dimensions afterwards. -/
structure Grid where
  swap : Bool
  order0 : Int
  order1 : Int
  dims : Int × Int
  corner : Int × Int
  opp : Int × Int
  deriving DecidableEq, Repr

/-- `GridGeometryFragment.__init__`, geometry2/__init__.py:90-117. -/
def Grid.init (corner ss fs : Int × Int) (ssPixels fsPixels : Int) : Grid :=
  if fs.1 = 0 then
    let shift := (min ss.1 0 * ssPixels, min fs.2 0 * fsPixels)
    let c := (corner.1 + shift.1, corner.2 + shift.2)
    ⟨false, ss.1, fs.2, (ssPixels, fsPixels), c, (c.1 + ssPixels, c.2 + fsPixels)⟩
  else
    let shift := (min fs.1 0 * fsPixels, min ss.2 0 * ssPixels)
    let c := (corner.1 + shift.1, corner.2 + shift.2)
    ⟨true, fs.1, ss.2, (fsPixels, ssPixels), c, (c.1 + fsPixels, c.2 + ssPixels)⟩

/-- `transform`, geometry2/__init__.py:100, 110. -/
def Grid.transform (g : Grid) (p : Plane V) : R (Plane V) :=
  if g.swap then p.swapaxes.stride g.order0 g.order1 else p.stride g.order0 g.order1

/-- `snap`, geometry2/__init__.py:58-71; `px` is the pixel shape (x, y). -/
def Frag.snap (f : Frag K) (px : K × K) : R Grid :=
  let c := (around (f.corner.x / px.1), around (f.corner.y / px.2))
  let ss := (around (f.ss.x / px.1), around (f.ss.y / px.2))
  let fs := (around (f.fs.x / px.1), around (f.fs.y / px.2))
  if ((|ss.1|, |ss.2|) = ((0, 1) : Int × Int) ∧ (|fs.1|, |fs.2|) = ((1, 0) : Int × Int)) ∨
     ((|ss.1|, |ss.2|) = ((1, 0) : Int × Int) ∧ (|fs.1|, |fs.2|) = ((0, 1) : Int × Int)) then
    .ok (Grid.init (c.2, c.1) (ss.2, ss.1) (fs.2, fs.1) f.ssPixels f.fsPixels)
  else .error .assertion

/-! ### Assembling images -/

/-- The smallest of a non-empty list. -/
def listMin {α : Type} [LinearOrder α] : α → List α → α
  | a, [] => a
  | a, b :: l => listMin (min a b) l

/-- The largest of a non-empty list. -/
def listMax {α : Type} [LinearOrder α] : α → List α → α
  | a, [] => a
  | a, b :: l => listMax (max a b) l

/-- `SnappedGeometry`, geometry2/__init__.py:899-909. -/
structure Snapped where
  det : Det
  modules : List (List Grid)
  size : Int × Int
  centre : Int × Int

/-- The corners of all tiles as collected in `_get_dimensions`, geometry2/__init__.py:946-950. -/
def snapCorners (modules : List (List Grid)) : List (Int × Int) :=
  modules.flatten.flatMap (fun g => [g.corner, g.opp])

/-- `SnappedGeometry.__init__` with `_get_dimensions`, geometry2/__init__.py:906-909, 941-959; `np.stack` of an empty list
is a ValueError. -/
def Snapped.init (det : Det) (modules : List (List Grid)) : R Snapped :=
  match snapCorners modules with
  | [] => .error .value
  | c :: cs =>
    let minY := listMin c.1 (cs.map Prod.fst)
    let minX := listMin c.2 (cs.map Prod.snd)
    let maxY := listMax c.1 (cs.map Prod.fst)
    let maxX := listMax c.2 (cs.map Prod.snd)
    .ok ⟨det, modules, (maxY - minY, maxX - minX), (-minY, -minX)⟩

/-- `make_output_array`, geometry2/__init__.py:911-915, without leading dimensions; `nan` is what `np.nan` becomes in the
dtype. -/
def Snapped.output (s : Snapped) (nan : V) : Plane V := ⟨s.size.1.toNat, s.size.2.toNat, fun _ _ => nan⟩

/-- One round of the inner loop of `position_modules`, geometry2/__init__.py:932-937. -/
def Snapped.place (s : Snapped) (tiles : List (Plane V)) (out : Plane V) (jt : Grid × Nat) : R (Plane V) :=
  match nth tiles jt.2 with
  | .error e => .error e
  | .ok tileData =>
    match jt.1.transform tileData with
    | .error e => .error e
    | .ok src =>
      let y := jt.1.corner.1 + s.centre.1
      let x := jt.1.corner.2 + s.centre.2
      out.assign y (y + jt.1.dims.1) x (x + jt.1.dims.2) src

/-- One round of the outer loop of `position_modules`, geometry2/__init__.py:929-937. -/
def Snapped.placeModule (s : Snapped) (data : Stack V) (out : Plane V) (im : List Grid × Nat) : R (Plane V) :=
  match data.plane im.2 with
  | .error e => .error e
  | .ok modData =>
    match s.det.splitTiles modData with
    | .error e => .error e
    | .ok tiles => foldE (s.place tiles) out im.1.zipIdx

/-- `position_modules`, geometry2/__init__.py:917-939, without leading dimensions. `out` is the given array, with its
dtype; `safe` is `np.can_cast(_, _, casting='safe')`, and a safe conversion does not change values. -/
def Snapped.positionModules (s : Snapped) (safe : Nat → Nat → Bool) (nan : Nat → V) (data : Stack V)
    (out : Option (Nat × Plane V)) : R (Plane V × (Int × Int)) :=
  if (data.n, data.h, data.w) = s.det.dataShape then
    let start : R (Plane V) := match out with
      | none => .ok (s.output (nan data.dtype))
      | some (dt, o) =>
        if ((o.h : Int), (o.w : Int)) = s.size then
          if safe data.dtype dt then .ok o else .error .type
        else .error .assertion
    match start with
    | .error e => .error e
    | .ok o =>
      match foldE (s.placeModule data) o s.modules.zipIdx with
      | .error e => .error e
      | .ok res => .ok (res, s.centre)
  else .error .assertion

/-- A geometry object, geometry2/__init__.py:140-146; the file name is dropped. -/
structure Geom (K : Type) where
  det : Det
  modules : List (List (Frag K))

/-- `_pixel_shape` (x, y), geometry2/__init__.py:135-138, and 1321 for DSSC; `rowStep` stands for `1.5/np.sqrt(3)`. -/
def Det.pixelShape (rowStep : K) : Det → K × K
  | .agipd => (1 * Det.agipd.pixelSize, 1 * Det.agipd.pixelSize)
  | .lpd => (1 * Det.lpd.pixelSize, 1 * Det.lpd.pixelSize)
  | .dssc => (1 * Det.dssc.pixelSize, rowStep * Det.dssc.pixelSize)

/-- `_snapped`, geometry2/__init__.py:266-279. The cache is not modelled: geometry objects are not changed after they are
made. -/
def Geom.snapped (g : Geom K) (rowStep : K) : R Snapped :=
  match mapE (mapE (fun f : Frag K => f.snap (g.det.pixelShape rowStep))) g.modules with
  | .error e => .error e
  | .ok mods => Snapped.init g.det mods

/-- `position_modules_fast`, geometry2/__init__.py:309-338. -/
def Geom.positionFast (g : Geom K) (rowStep : K) (safe : Nat → Nat → Bool) (nan : Nat → V) (data : Stack V)
    (out : Option (Nat × Plane V)) : R (Plane V × (Int × Int)) :=
  match g.snapped rowStep with
  | .error e => .error e
  | .ok s => s.positionModules safe nan data out

/-- `output_array_for_position_fast`, geometry2/__init__.py:289-307. -/
def Geom.outputFast (g : Geom K) (rowStep : K) (nan : V) : R (Plane V) :=
  match g.snapped rowStep with
  | .error e => .error e
  | .ok s => .ok (s.output nan)

/-! ### Positions of pixels -/

/-- `_adjust_pixel_coords`, geometry2/__init__.py:472-478 (base), 1503-1512 (DSSC): the slow-scan and fast-scan
coordinates of the pixel in row i and column j of a tile. -/
def Det.adjust (centre : Bool) : Det → Nat → Nat → K × K
  | .dssc, i, j =>
    let fs : K := if i % 2 = 1 then (j : K) - 1 / 2 else j
    if centre then ((i : K) + 2 / 3, fs + 1 / 2) else (i, fs)
  | _, i, j => if centre then ((i : K) + 1 / 2, (j : K) + 1 / 2) else (i, j)

/-- The coordinates of the pixels of one tile, geometry2/__init__.py:505-525. -/
def Geom.tilePositions (g : Geom K) (centre : Bool) (f : Frag K) : Plane (Vec K) :=
  ⟨g.det.ssPixels, g.det.fsPixels, fun i j =>
    let c : K × K := g.det.adjust centre i j
    ⟨f.corner.x + c.1 * f.ss.x + c.2 * f.fs.x, f.corner.y + c.1 * f.ss.y + c.2 * f.fs.y,
     f.corner.z + c.1 * f.ss.z + c.2 * f.fs.z⟩⟩

/-- One round of the inner loop of `get_pixel_positions`, geometry2/__init__.py:504-533. -/
def Geom.putTile (g : Geom K) (centre : Bool) (m : Nat) (out : Stack (Vec K)) (ft : Frag K × Nat) : R (Stack (Vec K)) :=
  let r := g.det.tileSlice ft.2
  out.assign m r.y0 r.y1 r.x0 r.x1 (g.tilePositions centre ft.1)

/-- `get_pixel_positions`, geometry2/__init__.py:480-535. -/
def Geom.pixelPositions (g : Geom K) (centre : Bool) : R (Stack (Vec K)) :=
  foldE (fun out (mm : List (Frag K) × Nat) => foldE (g.putTile centre mm.2) out mm.1.zipIdx)
    ⟨0, g.det.dataShape.1, g.det.dataShape.2.1, g.det.dataShape.2.2, fun _ _ _ => ⟨0, 0, 0⟩⟩ g.modules.zipIdx

/-- `data_coords_to_positions`, geometry2/__init__.py:537-590, for one module number and position; negative indices of the
array of all tiles count from its end. -/
def Geom.coordToPosition (g : Geom K) (m : Int) (ss fs : K) : R (Vec K) :=
  match g.modules.flatten with
  | [] => .error .value
  | tiles =>
    match g.det.coordsToTile ss fs with
    | .error e => .error e
    | .ok (tileno, tss, tfs) =>
      match pyIndex tiles (m * g.det.nTiles + tileno) with
      | .error e => .error e
      | .ok t => .ok ((t.corner.add (t.ss.smul tss)).add (t.fs.smul tfs))

/-- `data_coords_to_positions` for flat arrays of coordinates; AssertionError if their shapes are different. With no
coordinates at all the tiles are not indexed. -/
def Geom.coordsToPositions (g : Geom K) (ms : List Int) (ss fs : List K) : R (List (Vec K)) :=
  if ms.length = ss.length ∧ ss.length = fs.length then
    match g.modules.flatten with
    | [] => .error .value
    | _ :: _ =>
      match g.det with
      | .dssc => .error .notImplemented
      | _ => mapE (fun c : Int × K × K => g.coordToPosition c.1 c.2.1 c.2.2) (ms.zip (ss.zip fs))
  else .error .assertion

/-- `_pixel_corners`, geometry2/__init__.py:129-132 (base), 1327-1330 (DSSC): the slow-scan and fast-scan offsets of the
corners of a pixel. -/
def Det.pixelCorners : Det → List (K × K)
  | .dssc => [(0 * 4 / 3, 1 / 2), (1 / 4 * 4 / 3, 1), (3 / 4 * 4 / 3, 1), (1 * 4 / 3, 1 / 2), (3 / 4 * 4 / 3, 0),
      (1 / 4 * 4 / 3, 0)]
  | _ => [(0, 0), (1, 0), (1, 1), (0, 1)]

/-- `_distortion_array_slice`, geometry2/__init__.py:386-399. -/
def Det.distortionSlice (d : Det) (m t : Nat) : Region :=
  let r := d.tileSlice t
  let off := m * d.dataShape.2.1
  ⟨r.y0 + off, r.y1 + off, r.x0, r.x1⟩

/-- The corners of the pixels of one tile, geometry2/__init__.py:419-452: for each pixel and corner (z, y, x), as a
vector. -/
def Geom.tileCorners (g : Geom K) (pixpos : Plane (Vec K)) (r : Region) (f : Frag K) : Plane (List (Vec K)) :=
  ⟨r.y1 - r.y0, r.x1 - r.x0, fun i j =>
    let p := pixpos.get (r.y0 + i) (r.x0 + j)
    (Det.pixelCorners g.det).map (fun c : K × K =>
      ⟨p.x + c.1 * f.ss.x + c.2 * f.fs.x, p.y + c.1 * f.ss.y + c.2 * f.fs.y, p.z + c.1 * f.ss.z + c.2 * f.fs.z⟩)⟩

/-- One round of the inner loop of `to_distortion_array`, geometry2/__init__.py:418-452. -/
def Geom.putCorners (g : Geom K) (pixpos : Plane (Vec K)) (m : Nat) (out : Plane (List (Vec K))) (ft : Frag K × Nat) :
    R (Plane (List (Vec K))) :=
  let r := g.det.distortionSlice m ft.2
  out.assign r.y0 r.y1 r.x0 r.x1 (g.tileCorners pixpos r ft.1)

/-- All corners in the array. -/
def cornersIn (p : Plane (List (Vec K))) : List (Vec K) :=
  (List.range p.h).flatMap (fun i => (List.range p.w).flatMap (fun j => p.get i j))

/-- `distortion[..., 1:] -= min_yx`, geometry2/__init__.py:454-457; the minimum of an empty array is a ValueError. -/
def shiftCorners (p : Plane (List (Vec K))) : R (Plane (List (Vec K))) :=
  match cornersIn p with
  | [] => .error .value
  | c :: cs =>
    let minX := listMin c.x (cs.map Vec.x)
    let minY := listMin c.y (cs.map Vec.y)
    .ok ⟨p.h, p.w, fun i j => (p.get i j).map (fun v => ⟨v.x - minX, v.y - minY, v.z⟩)⟩

/-- `to_distortion_array`, geometry2/__init__.py:401-459; conversion to float32 is not modelled. -/
def Geom.distortionArray (g : Geom K) (allowNegative : Bool) : R (Plane (List (Vec K))) :=
  match g.pixelPositions false with
  | .error e => .error e
  | .ok pos =>
    let rows := g.det.dataShape.2.1
    let pixpos : Plane (Vec K) := ⟨g.det.dataShape.1 * rows, g.det.dataShape.2.2, fun r j => pos.get (r / rows) (r % rows) j⟩
    match foldE (fun out (mm : List (Frag K) × Nat) => foldE (g.putCorners pixpos mm.2) out mm.1.zipIdx)
        ⟨g.det.dataShape.1 * rows, g.det.dataShape.2.2, fun _ _ =>
          (Det.pixelCorners g.det).map (fun _ : K × K => (⟨0, 0, 0⟩ : Vec K))⟩ g.modules.zipIdx with
    | .error e => .error e
    | .ok d => if allowNegative then .ok d else shiftCorners d

/-! ### Making geometries -/

/-- The tile `a` of module `p`, AGIPD_1MGeometry.from_quad_positions, geometry2/__init__.py:627-661. -/
def agipdTile (unit asicGap panelGap : K) (quad : K × K) (p a : Nat) : Frag K :=
  let px : K := Det.agipd.pixelSize
  let asicGapPx := asicGap * unit / px
  let panelGapPx := panelGap * unit / px
  let moduleHeight := ((Det.agipd.fsPixels : K) + panelGapPx) * px
  let tileWidth := ((Det.agipd.ssPixels : K) + asicGapPx) * px
  let xOrient : K := if p / 4 < 2 then 1 else -1
  let yOrient : K := if p / 4 < 2 then -1 else 1
  ⟨⟨quad.1 * unit + xOrient * tileWidth * a, quad.2 * unit - ((p % 4 : Nat) : K) * moduleHeight, 0⟩,
   ⟨xOrient * unit, 0, 0⟩, ⟨0, yOrient * unit, 0⟩, Det.agipd.ssPixels, Det.agipd.fsPixels⟩

/-- The tiles of module p with the position of its quadrant, geometry2/__init__.py:640-642, 1086-1088: `quad_pos[p // 4]`;
IndexError if it is missing. -/
def overQuad (quads : List (K × K)) (tiles : K × K → Nat → List (Frag K)) (p : Nat) : R (List (Frag K)) :=
  match nth quads (p / 4) with
  | .error e => .error e
  | .ok q => .ok (tiles q p)

/-- `AGIPD_1MGeometry.from_quad_positions`, geometry2/__init__.py:608-662; `unit` is the pixel size by default (609-610);
IndexError with fewer than four positions. -/
def agipdQuads (quads : List (K × K)) (unit asicGap panelGap : K) : R (Geom K) :=
  match mapE (overQuad quads (fun q p => (List.range 8).map (agipdTile unit asicGap panelGap q p))) (List.range 16) with
  | .error e => .error e
  | .ok mods => .ok ⟨.agipd, mods⟩

/-- `panels_across` and `panels_up`, geometry2/__init__.py:1082-1083. -/
def lpdPanel : Nat → Int × Int
  | 0 => (-1, 0)
  | 1 => (-1, -1)
  | 2 => (0, -1)
  | _ => (0, 0)

/-- `asic_gap_px` and `panel_gap_px`, geometry2/__init__.py:1065-1066: 4 pixels unless given. -/
def lpdGapPx (conv : K) : Option K → K
  | none => 4
  | some g => g * conv

/-- The tile `a` of module `p`, LPD_1MGeometry.from_quad_positions, geometry2/__init__.py:1064-1121. -/
def lpdTile (unit : K) (asicGap panelGap : Option K) (quad : K × K) (p a : Nat) : Frag K :=
  let px : K := Det.lpd.pixelSize
  let conv := unit / px
  let asicGapPx := lpdGapPx conv asicGap
  let panelGapPx := lpdGapPx conv panelGap
  let panelWidth := (256 + asicGapPx + panelGapPx) * px
  let panelHeight := (256 + 7 * asicGapPx + panelGapPx) * px
  let tileWidth := ((Det.lpd.fsPixels : K) + asicGapPx) * px
  let tileHeight := ((Det.lpd.ssPixels : K) + asicGapPx) * px
  let panelX := quad.1 * unit + ((lpdPanel (p % 4)).1 : K) * panelWidth
  let panelY := quad.2 * unit + ((lpdPanel (p % 4)).2 : K) * panelHeight
  let across : Int := if a < 8 then -1 else 0
  let up : Int := if a < 8 then -(a : Int) else -(15 - (a : Int))
  ⟨⟨panelX + (across : K) * tileWidth - (Det.lpd.fsPixels : K) * px, panelY + (up : K) * tileHeight - (Det.lpd.ssPixels : K) * px, 0⟩,
   ⟨0, 1 * px, 0⟩, ⟨1 * px, 0, 0⟩, Det.lpd.ssPixels, Det.lpd.fsPixels⟩

/-- `LPD_1MGeometry.from_quad_positions`, geometry2/__init__.py:1034-1122. -/
def lpdQuads (quads : List (K × K)) (unit : K) (asicGap panelGap : Option K) : R (Geom K) :=
  match mapE (overQuad quads (fun q p => (List.range Det.lpd.nTiles).map (lpdTile unit asicGap panelGap q p)))
      (List.range Det.lpd.nModules) with
  | .error e => .error e
  | .ok mods => .ok ⟨.lpd, mods⟩

/-- The positions in an XFEL geometry file (HDF5): of module (Q, M), and of tile (Q, M, T), numbered from 1; `none`: no
such group. Only x and y are used. -/
structure H5Geom (K : Type) where
  module : Nat → Nat → Option (K × K)
  tile : Nat → Nat → Nat → Option (K × K)

/-- The corner of a tile as both `from_h5_file_and_quad_positions` read it, geometry2/__init__.py:1155-1166, 1370-1385;
KeyError for a missing group. -/
def h5Corner (f : H5Geom K) (unit : K) (pos : K × K) (Q M T : Nat) : R (Vec K) :=
  match f.module Q M with
  | none => .error .key
  | some mo =>
    match f.tile Q M T with
    | none => .error .key
    | some tp => .ok ⟨(pos.1 + mo.1 + tp.1) * unit, (pos.2 + mo.2 + tp.2) * unit, 0 * unit⟩

/-- One tile of LPD_1MGeometry.from_h5_file_and_quad_positions, geometry2/__init__.py:1160-1182. -/
def lpdH5Tile (f : H5Geom K) (unit : K) (pos : K × K) (Q M T : Nat) : R (Frag K) :=
  match h5Corner f unit pos Q M T with
  | .error e => .error e
  | .ok c =>
    let px : K := Det.lpd.pixelSize
    let ss : Vec K := ⟨0, 1 * px, 0⟩
    let fs : Vec K := ⟨1 * px, 0, 0⟩
    .ok ⟨(c.sub (ss.smul Det.lpd.ssPixels)).sub (fs.smul Det.lpd.fsPixels), ss, fs, Det.lpd.ssPixels, Det.lpd.fsPixels⟩

/-- One tile of DSSC_1MGeometry.from_h5_file_and_quad_positions, geometry2/__init__.py:1374-1407. -/
def dsscH5Tile (f : H5Geom K) (rowStep unit : K) (pos : K × K) (Q M T : Nat) : R (Frag K) :=
  match h5Corner f unit pos Q M T with
  | .error e => .error e
  | .ok c =>
    let px : K := Det.dssc.pixelSize
    let xOrient : Int := if Q - 1 < 2 then -1 else 1
    let yOrient : Int := if Q - 1 < 2 then 1 else -1
    let ss : Vec K := ⟨0, (yOrient : K) * px * rowStep, 0⟩
    let fs : Vec K := ⟨(xOrient : K) * px, 0, 0⟩
    let first := if xOrient = -1 then c.sub (fs.smul Det.dssc.fsPixels) else c.sub (ss.smul Det.dssc.ssPixels)
    .ok ⟨first, ss, fs, Det.dssc.ssPixels, Det.dssc.fsPixels⟩

/-- The tiles of module k (counted over the quadrants) in both `from_h5_file_and_quad_positions`,
geometry2/__init__.py:1152-1184, 1363-1409. -/
def h5Module (nTiles : Nat) (tile : K × K → Nat → Nat → Nat → R (Frag K)) (positions : List (K × K)) (k : Nat) :
    R (List (Frag K)) :=
  match nth positions (k / 4) with
  | .error e => .error e
  | .ok pos => mapE (fun T => tile pos (k / 4 + 1) (k % 4 + 1) (T + 1)) (List.range nTiles)

/-- The loops of both `from_h5_file_and_quad_positions`, geometry2/__init__.py:1151-1185, 1362-1410; AssertionError unless
there are four positions. LPD has `range(1, cls.n_modules+1)` tiles (1160), DSSC `range(1, 3)` (1379). -/
def h5Quads (d : Det) (nTiles : Nat) (tile : K × K → Nat → Nat → Nat → R (Frag K)) (positions : List (K × K)) : R (Geom K) :=
  if positions.length = 4 then
    match mapE (h5Module nTiles tile positions) (List.range 16) with
    | .error e => .error e
    | .ok mods => .ok ⟨d, mods⟩
  else .error .assertion

/-- `LPD_1MGeometry.from_h5_file_and_quad_positions`, geometry2/__init__.py:1124-1185. -/
def lpdH5 (f : H5Geom K) (positions : List (K × K)) (unit : K) : R (Geom K) :=
  h5Quads .lpd Det.lpd.nModules (lpdH5Tile f unit) positions

/-- `DSSC_1MGeometry.from_h5_file_and_quad_positions`, geometry2/__init__.py:1332-1410. -/
def dsscH5 (f : H5Geom K) (rowStep : K) (positions : List (K × K)) (unit : K) : R (Geom K) :=
  h5Quads .dssc 2 (dsscH5Tile f rowStep unit) positions

/-- An XFEL geometry file as `invert_xfel_lpd_geom` uses it: which of the datasets `DetectorDescribtion` and
`DetectorDescription` it has (with a content), and the positions. -/
structure H5GeomFile (K : Type) where
  describtion : Option Str
  description : Option Str
  geom : H5Geom K

/-- `-pos[:]` of a position; KeyError when missing. -/
def negPos : Option (K × K) → R (K × K)
  | none => .error .key
  | some p => .ok (-p.1, -p.2)

/-- One round of the loop of `invert_xfel_lpd_geom`, geometry2/__init__.py:1295-1301, for module k (counted over the
quadrants): the position written for the module and those for its tiles. -/
def invertModule (f : H5Geom K) (k : Nat) : R ((K × K) × List (K × K)) :=
  match negPos (f.module (k / 4 + 1) (k % 4 + 1)) with
  | .error e => .error e
  | .ok m =>
    match mapE (fun T => negPos (f.tile (k / 4 + 1) (k % 4 + 1) (T + 1))) (List.range 16) with
    | .error e => .error e
    | .ok ts => .ok (m, ts)

/-- The positions in a file in which those of the modules were written one after the other, geometry2/__init__.py:1295-1301. -/
def writtenGeom (mods : List ((K × K) × List (K × K))) : H5Geom K :=
  ⟨fun Q M => if 1 ≤ Q ∧ Q ≤ 4 ∧ 1 ≤ M ∧ M ≤ 4 then (mods[4 * (Q - 1) + (M - 1)]?).map Prod.fst else none,
   fun Q M T => if 1 ≤ Q ∧ Q ≤ 4 ∧ 1 ≤ M ∧ M ≤ 4 ∧ 1 ≤ T then
      (mods[4 * (Q - 1) + (M - 1)]?).bind (fun m => m.2[T - 1]?) else none⟩

/-- `invert_xfel_lpd_geom`, geometry2/__init__.py:1279-1301: the file written. Attributes are dropped; positions have
only x and y here. -/
def invertLpd (f : H5GeomFile K) : R (H5GeomFile K) :=
  match f.describtion with
  | none => .error .key
  | some d =>
    match mapE (invertModule f.geom) (List.range 16) with
    | .error e => .error e
    | .ok mods => .ok ⟨none, some d, writtenGeom mods⟩

/-! ### Interpolation (AGIPD) -/

/-- `_get_dimensions`, geometry2/__init__.py:835-853: the size and the centre, (y, x). -/
def Geom.dimensions (g : Geom K) (rowStep : K) : R ((Int × Int) × (Int × Int)) :=
  match g.modules.flatten.flatMap Frag.corners with
  | [] => .error .value
  | c :: cs =>
    let px := g.det.pixelShape rowStep
    let minX := truncate (listMin (c.x / px.1) (cs.map (fun v => v.x / px.1))) - 1
    let minY := truncate (listMin (c.y / px.2) (cs.map (fun v => v.y / px.2))) - 1
    let maxX := truncate (listMax (c.x / px.1) (cs.map (fun v => v.x / px.1))) + 1
    let maxY := truncate (listMax (c.y / px.2) (cs.map (fun v => v.y / px.2))) + 1
    .ok ((maxY - minY, maxX - minX), (-minY, -minX))

/-- The point of the tile data which `position_modules_interpolate` shows at the cell (y, x) of the output,
geometry2/__init__.py:803-826: `affine_transform` looks up the input at `transform · (y, x) + offset`. `none`: the matrix
cannot be inverted. -/
def Frag.interpolates (f : Frag K) (centre : Int × Int) (y x : K) : Option (K × K) :=
  let cy := f.corner.y + centre.1
  let cx := f.corner.x + centre.2
  -- rotn = [[ss.y, fs.y], [ss.x, fs.x]]
  let det := f.ss.y * f.fs.x - f.fs.y * f.ss.x
  if det = 0 then none
  else
    let offset : K × K := (f.ss.y * cy + f.fs.y * cx, f.ss.x * cy + f.fs.x * cx)
    some ((f.fs.x * y - f.fs.y * x) / det + offset.1, (-f.ss.x * y + f.ss.y * x) / det + offset.2)

/-- What `affine_transform` puts in one of the arrays of `tmp`, geometry2/__init__.py:803-826; LinAlgError if the matrix
cannot be inverted. `interp` stands for scipy's interpolation of the tile data between pixels, which gives NaN (`none`)
outside of the data. -/
def Frag.interpolated (interp : Plane V → K → K → Option V) (centre : Int × Int) (fp : Frag K × Plane V) :
    R (Nat → Nat → Option V) :=
  if fp.1.ss.y * fp.1.fs.x - fp.1.fs.y * fp.1.ss.x = 0 then .error .generic
  else .ok (fun y x =>
    match fp.1.interpolates centre y x with
    | some (s, t) => interp fp.2 s t
    | none => none)

/-- The loop over the tiles of one module, geometry2/__init__.py:801-826: the arrays `tmp[i * 8]`, `tmp[i * 8 + 1]`, ... -/
def interpolateModule (interp : Plane V → K → K → Option V) (centre : Int × Int) (data : Stack V)
    (mi : List (Frag K) × Nat) : R (List (Nat × (Nat → Nat → Option V))) :=
  match data.plane mi.2 with
  | .error e => .error e
  | .ok p =>
    match p.splitRows 8 with
    | .error e => .error e
    | .ok tiles =>
      match mapE (Frag.interpolated interp centre) (mi.1.zip tiles) with
      | .error e => .error e
      | .ok parts => .ok (parts.zipIdx.map (fun q => (mi.2 * 8 + q.2, q.1)))

/-- `np.nanmax` of some numbers, geometry2/__init__.py:831: NaN if all of them are. -/
def nanMax [LinearOrder V] (l : List (Option V)) : Option V :=
  match l.filterMap id with
  | [] => none
  | v :: vs => some (listMax v vs)

/-- The content of the array `tmp[k]`, geometry2/__init__.py:798, 819-826: what the loop put there, or what happens to be in
memory (`junk`). -/
def tmpCell (junk : Nat → Nat → Nat → Option V) (parts : List (Nat × (Nat → Nat → Option V))) (y x k : Nat) : Option V :=
  match parts.find? (fun q => q.1 = k) with
  | some q => q.2 y x
  | none => junk k y x

/-- `position_modules_interpolate`, geometry2/__init__.py:774-833: the image and the centre (y, x). Simplification: the data are
floating point numbers (the array for the image has the dtype of the data). -/
def Geom.positionInterpolate [LinearOrder V] (g : Geom K) (rowStep : K) (interp : Plane V → K → K → Option V)
    (junk : Nat → Nat → Nat → Option V) (data : Stack V) : R (Plane (Option V) × (Int × Int)) :=
  if (data.n, data.h, data.w) = (16, 512, 128) then
    match g.dimensions rowStep with
    | .error e => .error e
    | .ok (size, centre) =>
      match mapE (interpolateModule interp centre data) (g.modules.zip (List.range data.n)) with
      | .error e => .error e
      | .ok parts =>
        .ok (⟨size.1.toNat, size.2.toNat, fun y x => nanMax ((List.range (16 * 8)).map (tmpCell junk parts.flatten y x))⟩,
          centre)
  else .error .assertion

/-! ### The deprecated LPD geometry -/

/-- `splitChannelDataIntoTiles`, geometry.py:11-43, for one frame: the arrays of shape (2, 8, h/8, w/2) are reshaped to
(16, 32, 128), in the order of memory; ValueError if this is not possible. -/
def splitChannel (p : Plane V) (clockwise : Bool) : R (List (Plane V)) :=
  if p.h % 8 = 0 then
    if p.w % 2 = 0 then
      let H := p.h / 8
      let W := p.w / 2
      if 2 * (8 * (H * W)) = 16 * (32 * 128) then
        -- the element number k of the array of shape (2, 8, H, W)
        let flat : Nat → V := fun k =>
          p.get ((k / (H * W) % 8) * H + k / W % H) ((k / (8 * (H * W))) * W + k % W)
        let tile : Nat → Plane V := fun t => ⟨32, 128, fun i j => flat (t * (32 * 128) + i * 128 + j)⟩
        let order := if clockwise then (List.range 8).reverse ++ (List.range 8).map (· + 8) else List.range 16
        .ok (order.map tile)
      else .error .value
    else .error .value
  else .error .value

end KD.Geo

/-
What the plotting methods of geometry objects draw: /repo/karabo_data/geometry2/__init__.py and the deprecated
/repo/karabo_data/geometry.py. Drawing itself (matplotlib) is not modelled: a plot is the list of the shapes, texts and limits which are
handed to matplotlib. Colours, sizes of figures, legends, titles and keyword arguments of matplotlib are left out.
-/
import Verif.Model.Geometry
import Verif.Model.OldGeometry

namespace KD.Geo

variable {V : Type} {K : Type} [Field K] [LinearOrder K] [IsStrictOrderedRing K] [FloorRing K]

/-- `_get_plot_scale_factor`, geometry2/__init__.py:148-155. -/
def Det.plotScale (d : Det) (units : Str) : R K :=
  if units = ch! "m" then .ok 1
  else if units = ch! "px" then .ok (1 / d.pixelSize)
  else .error .value

/-- `v[:2] * scale`. -/
def Vec.xy (v : Vec K) (scale : K) : K × K := (v.x * scale, v.y * scale)

/-- The labels of the axes, geometry2/__init__.py:207-208, 1005-1006. -/
def axisLabel (units : Str) : Str := if units = ch! "m" then ch! "metres" else ch! "pixels"

/-- The layout drawn by `inspect`: outlines of tiles, for every marked tile its first pixel and the end of its first row, texts
and where they are, half the size of the cross at (0, 0), the label of the axes, and whether x increases to the left. -/
structure Layout (K : Type) where
  outlines : List (List (K × K))
  firstRows : List ((K × K) × (K × K))
  texts : List (Str × (K × K))
  cross : K
  label : Str
  mirrored : Bool

/-- `_draw_first_px_on_tile` (counted from 1), geometry2/__init__.py:133, 1032. -/
def Det.firstTile : Det → Nat
  | .lpd => 8
  | _ => 1

/-- The first row of a tile, geometry2/__init__.py:179-182. -/
def Frag.firstRow (f : Frag K) (scale : K) : (K × K) × (K × K) :=
  (f.corner.xy scale, ((f.corner.smul scale).add ((f.fs.smul (f.fsPixels : K)).smul scale)).xy 1)

/-- The marked tiles, geometry2/__init__.py:173-182. -/
def Geom.firstRows (g : Geom K) (scale : K) : List ((K × K) × (K × K)) :=
  (g.modules.map (fun m => (m.zipIdx 1).filter (fun ft => ft.2 = g.det.firstTile))).flatten.map (fun ft => ft.1.firstRow scale)

/-- `DetectorGeometryBase.inspect`, geometry2/__init__.py:157-210; without marked tiles `np.array([])[:, 0, 0]` is an IndexError. -/
def Geom.inspectBase (g : Geom K) (units : Str) (frontview : Bool) : R (Layout K) :=
  match g.det.plotScale units with
  | .error e => .error e
  | .ok scale =>
    match g.firstRows scale with
    | [] => .error .index
    | rows => .ok ⟨g.modules.flatten.map (fun f => f.corners.map (fun c => c.xy scale)), rows, [], 2 / 100 * scale, axisLabel units, frontview⟩

/-- The tile where the name of the module is written, and other tiles with their number; counted from 0.
geometry2/__init__.py:684, 689 (AGIPD), 1207, 1212 (LPD), 1432, 1437 (DSSC). -/
def Det.labelled : Det → Nat × List Nat
  | .agipd => (4, [0, 7])
  | .lpd => (0, [7, 8, 15])
  | .dssc => (0, [1])

/-- `'T{}'.format(t + 1)` at the centre of a tile, geometry2/__init__.py:690-691, 1213-1214, 1438-1439. -/
def tileText (module : List (Frag K)) (scale : K) (t : Nat) : R (Str × (K × K)) :=
  match nth module t with
  | .error e => .error e
  | .ok f => .ok (ch! "T" ++ natStr (t + 1), f.centre.xy scale)

/-- The texts for one module, geometry2/__init__.py:682-693, 1205-1216, 1430-1441. -/
def moduleTexts (d : Det) (scale : K) (mc : List (Frag K) × Nat) : R (List (Str × (K × K))) :=
  match nth mc.1 d.labelled.1 with
  | .error e => .error e
  | .ok f =>
    match mapE (tileText mc.1 scale) d.labelled.2 with
    | .error e => .error e
    | .ok ts => .ok ((ch! "Q" ++ natStr (mc.2 / 4 + 1) ++ ch! "M" ++ natStr (mc.2 % 4 + 1), f.centre.xy scale) :: ts)

/-- `inspect`, geometry2/__init__.py:664-696 (AGIPD), 1187-1219 (LPD), 1412-1444 (DSSC). -/
def Geom.inspect (g : Geom K) (units : Str) (frontview : Bool) : R (Layout K) :=
  match g.inspectBase units frontview with
  | .error e => .error e
  | .ok l =>
    match g.det.plotScale units with
    | .error e => .error e
    | .ok scale =>
      match mapE (moduleTexts g.det scale) g.modules.zipIdx with
      | .error e => .error e
      | .ok ts => .ok { l with texts := ts.flatten }

/-- An image on axes: `imshow(image, extent=(left, right, bottom, top))` with the first row at the bottom, half the size of the cross at
`crossAt`, the label of the axes, whether x increases to the left, and the aspect. -/
structure Picture (V K : Type) where
  image : Plane V
  left : K
  right : K
  bottom : K
  top : K
  crossAt : K × K
  cross : K
  label : Str
  mirrored : Bool
  aspect : K

/-- `SnappedGeometry.plot_data`, geometry2/__init__.py:961-1015, for data with exactly three dimensions and without `extent` or
`origin` among the keyword arguments. -/
def Snapped.plotData (s : Snapped) (safe : Nat → Nat → Bool) (nan : Nat → V) (data : Stack V) (units : Str) (frontview : Bool) :
    R (Picture V K) :=
  if units = ch! "px" ∨ units = ch! "m" then
    match s.positionModules safe nan data none with
    | .error e => .error e
    | .ok (res, centre) =>
      let u : K := if units = ch! "m" then s.det.pixelSize else 1
      .ok ⟨res, (((-centre.2 : Int) : K) - 1 / 2) * u, (((res.w - centre.2 : Int) : K) + 1 / 2) * u,
        (((-centre.1 : Int) : K) - 1 / 2) * u, (((res.h - centre.1 : Int) : K) + 1 / 2) * u, (0, 0), 20 * u, axisLabel units, frontview, 1⟩
  else .error .value

/-- `plot_data_fast`, geometry2/__init__.py:344-384, and 1451-1470 for DSSC. -/
def Geom.plotDataFast (g : Geom K) (rowStep : K) (safe : Nat → Nat → Bool) (nan : Nat → V) (data : Stack V) (units : Str)
    (frontview : Bool) : R (Picture V K) :=
  match g.snapped rowStep with
  | .error e => .error e
  | .ok s =>
    match s.plotData safe nan data units frontview with
    | .error e => .error e
    | .ok pic => if g.det = .dssc then .ok { pic with aspect := 204 / 236 } else .ok pic

/-- `FancyArrow(x, y, dx, dy)`. -/
structure Arrow (K : Type) where
  start : K × K
  delta : K × K
  deriving DecidableEq

/-- What `compare` draws: outlines, texts, arrows and the limits of the axes. -/
structure Comparison (K : Type) where
  outlines : List (List (K × K))
  texts : List (Str × (K × K))
  arrows : List (Arrow K)
  xlim : K × K
  ylim : K × K

/-- The arrow for a corner, geometry2/__init__.py:742-747, 749-754; none if the corner is at the same place in both. -/
def cornerArrow (scale : K) (a b : Vec K) : List (Arrow K) :=
  if b.x - a.x = 0 ∧ b.y - a.y = 0 then [] else [⟨(a.x, a.y), (scale * (b.x - a.x), scale * (b.y - a.y))⟩]

/-- The arrows for one tile, geometry2/__init__.py:739-754: for its first corner and the opposite one. -/
def tileArrows (scale : K) (f f' : Frag K) : List (Arrow K) :=
  cornerArrow scale f.corner f'.corner ++
    cornerArrow scale ((f.corner.add (f.ss.smul f.ssPixels)).add (f.fs.smul f.fsPixels))
      ((f'.corner.add (f'.ss.smul f'.ssPixels)).add (f'.fs.smul f'.fsPixels))

/-- The text on a tile, geometry2/__init__.py:728-737. -/
def compareText (p : Nat) (fa : Frag K × Nat) : List (Str × (K × K)) :=
  if fa.2 = 0 ∨ fa.2 = 7 then [(natStr fa.2, fa.1.centre.xy 1)]
  else if fa.2 = 4 then [(ch! "p" ++ natStr p, fa.1.centre.xy 1)]
  else []

/-- One module in the loop of `compare`, geometry2/__init__.py:723-754; `other.modules[p][a]` may be an IndexError. -/
def compareModule (scale : K) (other : Geom K) (mp : List (Frag K) × Nat) : R (List (List (Arrow K))) :=
  mapE (fun fa : Frag K × Nat =>
    match nth other.modules mp.2 with
    | .error e => .error e
    | .ok m =>
      match nth m fa.2 with
      | .error e => .error e
      | .ok f' => .ok (tileArrows scale fa.1 f')) mp.1.zipIdx

/-- `AGIPD_1MGeometry.compare`, geometry2/__init__.py:698-772. `hull` are the corners of the polygon which matplotlib makes for an arrow
of width 5. Without tiles `np.concatenate([])` is a ValueError. -/
def Geom.compare (g other : Geom K) (scale : K) (hull : Arrow K → List (K × K)) : R (Comparison K) :=
  match mapE (compareModule scale other) g.modules.zipIdx with
  | .error e => .error e
  | .ok arrows =>
    let outlines := g.modules.flatten.map (fun f => f.corners.map (fun c => c.xy 1))
    match arrows.flatten.flatten.flatMap hull ++ outlines.flatten with
    | [] => .error .value
    | p :: ps =>
      .ok ⟨outlines, (g.modules.zipIdx.map (fun mp => (mp.1.zipIdx.map (compareText mp.2)).flatten)).flatten, arrows.flatten.flatten,
        (listMin p.1 (ps.map Prod.fst) - 20, listMax p.1 (ps.map Prod.fst) + 20),
        (listMin p.2 (ps.map Prod.snd) - 40, listMax p.2 (ps.map Prod.snd) + 20)⟩

/-! ### The deprecated geometry -/

/-- `LPDGeometry.plot_data`, geometry.py:170-199: `imshow` without an extent puts the middle of pixel (y, x) at (x, y), with the first
row at the top. -/
def OldFrag.plotData (g : OldFrag K) (nan : Option V) (data : Stack V) : R (Picture V K) :=
  match g.positionAll nan data with
  | .error e => .error e
  | .ok (res, centre) =>
    .ok ⟨res, -1 / 2, (res.w : K) - 1 / 2, -1 / 2, (res.h : K) - 1 / 2, ((centre.1 : K), (centre.2 : K)), 20, [], false, 1⟩

/-- One tile (counted from 0) in `inspect`, geometry.py:227-236: the background with a block for the tile, and texts so far. -/
def OldFrag.inspectTile (g : OldFrag K) (centre : Int × Int) (channel : Nat) (s : Plane Bool × List (Str × Int × Int)) (t : Nat) :
    R (Plane Bool × List (Str × Int × Int)) :=
  match g.findOffset (oldPath channel t) with
  | .error e => .error e
  | .ok pos =>
    let xt := ⌊pos.1 / oldPixel⌋ + centre.1
    let yt := ⌊pos.2 / oldPixel⌋ + centre.2
    match s.1.assign yt (yt + 32) xt (xt + 128) ⟨1, 1, fun _ _ => true⟩ with
    | .error e => .error e
    | .ok bg => .ok (bg, if t + 1 ∈ [1, 8, 9] then s.2 ++ [(natStr (t + 1), xt, yt)] else s.2)

/-- One module in `inspect`, geometry.py:221-236. -/
def OldFrag.inspectModule (g : OldFrag K) (centre : Int × Int) (s : Plane Bool × List (Str × Int × Int)) (channel : Nat) :
    R (Plane Bool × List (Str × Int × Int)) :=
  match g.findOffset ((oldPath channel 0).take 2) with
  | .error e => .error e
  | .ok pos =>
    foldE (g.inspectTile centre channel)
      (s.1, s.2 ++ [(((oldPath channel 0).take 2).flatten, ⌊pos.1 / oldPixel⌋ + centre.1, ⌊pos.2 / oldPixel⌋ + centre.2)]) (List.range 16)

/-- `LPDGeometry.inspect`, geometry.py:201-240: where there is a tile, texts at (x, y), and the place of the cross. -/
def OldFrag.inspect (g : OldFrag K) : R ((Plane Bool × List (Str × Int × Int)) × (Int × Int)) :=
  match g.dimensions with
  | .error e => .error e
  | .ok (size, centre) =>
    match foldE (g.inspectModule centre) (⟨size.2.toNat, size.1.toNat, fun _ _ => false⟩, []) (List.range 16) with
    | .error e => .error e
    | .ok s => .ok (s, centre)

end KD.Geo

/-
The deprecated LPD geometry, /repo/karabo_data/geometry.py (`splitChannelDataIntoTiles` is in Model/Geometry.lean). Plotting is in
Model/Plot.lean, printing in Model/OldGeometryText.lean. Numbers are exact; data have no dimensions before the one of modules.
-/
import Verif.Model.Geometry

namespace KD.Geo

variable {V : Type} {K : Type} [Field K] [LinearOrder K] [IsStrictOrderedRing K] [FloorRing K]

/-- `GeometryFragment`, geometry.py:46-49: the offset (x, y) and the children, a dict. -/
inductive OldFrag (K : Type) where
  | node (offset : K × K) (children : List (Str × OldFrag K))

/-- The child of a name, `self.children[name]`. -/
def oldChild (children : List (Str × OldFrag K)) (name : Str) : R (OldFrag K) :=
  match children.find? (fun c => c.1 = name) with
  | none => .error .key
  | some c => .ok c.2

/-- `find_offset`, geometry.py:61-65. -/
def OldFrag.findOffset : OldFrag K → List Str → R (K × K)
  | .node o _, [] => .ok o
  | .node o ch, name :: rest =>
    match oldChild ch name with
    | .error e => .error e
    | .ok c =>
      match c.findOffset rest with
      | .error e => .error e
      | .ok p => .ok (o.1 + p.1, o.2 + p.2)

mutual
/-- `iter_leaf_paths`, geometry.py:67-73. The children are visited in the order in which they are stored, not sorted: only the
smallest and largest positions are taken from this. -/
def OldFrag.leafPaths : OldFrag K → List (List Str)
  | .node _ [] => [[]]
  | .node _ (c :: ch) => oldLeafPaths (c :: ch)

/-- The loop over children of `iter_leaf_paths`, geometry.py:71-73. -/
def oldLeafPaths : List (Str × OldFrag K) → List (List Str)
  | [] => []
  | c :: rest => c.2.leafPaths.map (c.1 :: ·) ++ oldLeafPaths rest
end

/-- A group in a geometry file: its dataset `Position`, and its groups. Other members are left out. -/
inductive H5Group (K : Type) where
  | node (position : Option (K × K)) (groups : List (Str × H5Group K))

mutual
/-- `from_h5_group`, geometry.py:75-82; the unit is not passed on to the children. -/
def oldFromGroup (unit : K) : H5Group K → R (OldFrag K)
  | .node pos groups =>
    match oldFromGroups groups with
    | .error e => .error e
    | .ok ch =>
      match pos with
      | none => .error .key
      | some p => .ok (.node (p.1 * unit, p.2 * unit) ch)

/-- The children in `from_h5_group`, geometry.py:77-81. -/
def oldFromGroups : List (Str × H5Group K) → R (List (Str × OldFrag K))
  | [] => .ok []
  | g :: rest =>
    match oldFromGroup (1 / 1000) g.2 with
    | .error e => .error e
    | .ok f =>
      match oldFromGroups rest with
      | .error e => .error e
      | .ok fs => .ok ((g.1, f) :: fs)
end

/-- The modules of a quadrant, geometry.py:93-96. -/
def oldModule (unit : K) (g : Str × H5Group K) : R (Str × OldFrag K) :=
  match oldFromGroup unit g.2 with
  | .error e => .error e
  | .ok f => .ok (g.1, f)

/-- One round of the loop in `from_h5_file_and_quad_positions`, geometry.py:91-97. A dataset in the group of the quadrant raises
AttributeError (it has no items), here after all modules. -/
def oldQuad (file : Str → Option (H5Group K)) (unit : K) (q : (K × K) × Nat) : R (Str × OldFrag K) :=
  let name := ch! "Q" ++ natStr (q.2 + 1)
  match file name with
  | none => .error .key
  | some (.node pos groups) =>
    match mapE (oldModule unit) groups with
    | .error e => .error e
    | .ok modules =>
      match pos with
      | some _ => .error .attribute
      | none => .ok (name, .node (q.1.1 * unit, q.1.2 * unit) modules)

/-- `LPDGeometry.from_h5_file_and_quad_positions`, geometry.py:88-99. -/
def oldFromH5 (file : Str → Option (H5Group K)) (positions : List (K × K)) (unit : K) : R (OldFrag K) :=
  match mapE (oldQuad file unit) positions.zipIdx with
  | .error e => .error e
  | .ok quads => .ok (.node (0, 0) quads)

/-- `pixel_size`, geometry.py:86. -/
def oldPixel : K := 5 / 10000

/-- `_plotting_dimensions`, geometry.py:146-168: the size and the centre, both (x, y). -/
def OldFrag.dimensions (g : OldFrag K) : R ((Int × Int) × (Int × Int)) :=
  match mapE g.findOffset g.leafPaths with
  | .error e => .error e
  | .ok ps =>
    let minX := ⌊listMin 0 (ps.map Prod.fst) / oldPixel⌋ - 20
    let maxX := ⌊listMax 0 (ps.map Prod.fst) / oldPixel⌋ + 128 + 20
    let minY := ⌊listMin 0 (ps.map Prod.snd) / oldPixel⌋ - 20
    let maxY := ⌊listMax 0 (ps.map Prod.snd) / oldPixel⌋ + 32 + 20
    .ok ((maxX - minX, maxY - minY), (-minX, -minY))

/-- `"T{:02d}".format(n)`, geometry.py:135. -/
def tileName (n : Nat) : Str := ch! "T" ++ (if n < 10 then ch! "0" else []) ++ natStr n

/-- The path of a tile (counted from 0) of a channel, geometry.py:129-130, 135. -/
def oldPath (channel tile : Nat) : List Str :=
  [ch! "Q" ++ natStr (channel / 4 + 1), ch! "M" ++ natStr (channel % 4 + 1), tileName (tile + 1)]

/-- One round of the inner loop of `position_all_modules`, geometry.py:134-142. -/
def OldFrag.place (g : OldFrag K) (centre : Int × Int) (channel : Nat) (out : Plane V) (jt : Plane V × Nat) : R (Plane V) :=
  match g.findOffset (oldPath channel jt.2) with
  | .error e => .error e
  | .ok pos =>
    let x0 := ⌊pos.1 / oldPixel⌋ + centre.1
    let y0 := ⌊pos.2 / oldPixel⌋ + centre.2
    match jt.1.stride (-1) (-1) with
    | .error e => .error e
    | .ok src => out.assign y0 (y0 + jt.1.h) x0 (x0 + jt.1.w) src

/-- One round of the outer loop of `position_all_modules`, geometry.py:126-142. -/
def OldFrag.placeModule (g : OldFrag K) (centre : Int × Int) (data : Stack V) (out : Plane V) (channel : Nat) : R (Plane V) :=
  match data.plane channel with
  | .error e => .error e
  | .ok p =>
    match splitChannel p true with
    | .error e => .error e
    | .ok tiles => foldE (g.place centre channel) out tiles.zipIdx

/-- `position_all_modules`, geometry.py:101-144. `nan`: the value of `np.nan` in the dtype of the data; `none` for integers, for
which assigning it raises ValueError. -/
def OldFrag.positionAll (g : OldFrag K) (nan : Option V) (data : Stack V) : R (Plane V × (Int × Int)) :=
  if (data.n, data.h, data.w) = (16, 256, 256) then
    match g.dimensions with
    | .error e => .error e
    | .ok (size, centre) =>
      match nan with
      | none => .error .value
      | some v =>
        match foldE (g.placeModule centre data) ⟨size.2.toNat, size.1.toNat, fun _ _ => v⟩ (List.range 16) with
        | .error e => .error e
        | .ok res => .ok (res, centre)
  else .error .assertion

end KD.Geo

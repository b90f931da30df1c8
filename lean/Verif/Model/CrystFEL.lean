/-
CrystFEL geometry files: writing (/repo/karabo_data/geometry2/crystfel_fmt.py) and reading
(/repo/karabo_data/geometry2/__init__.py).

A file is a list of lines `key = value` or `panel/key = value`. How numbers are written as text (`{}` and `{:+}` of floats, which
Python can read back exactly) is not modelled: values of lines are numbers, vectors or texts. Reading the lines of a file is done by
`load_crystfel_geometry` of cfelpyutils, which is not in /repo; the model starts with the panels it returns.
-/
import Verif.Model.Geometry

namespace KD.Geo

variable {K : Type} [Field K] [LinearOrder K] [IsStrictOrderedRing K] [FloorRing K]

/-- The value in a line. -/
inductive CfVal (K : Type) where
  | num (x : K)
  | int (n : Int)
  | vec (x y : K) (z : Option K)
  | text (s : Str)
  deriving DecidableEq

/-- A line of a CrystFEL file: a comment, `key = value`, or `name/key = value`. -/
inductive CfLine (K : Type) where
  | comment
  | top (key : Str) (v : CfVal K)
  | panel (name key : Str) (v : CfVal K)
  deriving DecidableEq

/-- An element of `dims`: a name, or an index for an extra dimension. -/
inductive DimName where
  | name (s : Str)
  | index (n : Int)
  deriving DecidableEq

/-- The keyword arguments of `write_crystfel_geom`, geometry2/crystfel_fmt.py:79-82. -/
structure CfOptions (K : Type) where
  dataPath : Str
  maskPath : Option Str
  dims : List DimName
  aduPerEv : Option K
  clen : Option K
  photonEnergy : Option K

/-- `_crystfel_format_vec`, geometry2/crystfel_fmt.py:45-51: z is written only when it is not 0. -/
def cfVec (v : Vec K) : CfVal K := .vec v.x v.y (if v.z ≠ 0 then some v.z else none)

/-- `'p{}a{}'.format(p, a)`, geometry2/crystfel_fmt.py:55, 162; geometry2/__init__.py:224. -/
def panelName (p a : Nat) : Str := ch! "p" ++ natStr p ++ ch! "a" ++ natStr a

/-- The value of one dimension of a panel, geometry2/crystfel_fmt.py:59-63. -/
def dimValue (p : Nat) : DimName → CfVal K
  | .name s => if s = ch! "modno" then .int p else .text s
  | .index n => .int n

/-- `frag_to_crystfel`, geometry2/crystfel_fmt.py:31-42, 54-77. -/
def panelLines (f : Frag K) (p a : Nat) (r : Region) (dims : List (Nat × DimName)) (px : K) : List (CfLine K) :=
  let name := panelName p a
  let c := f.corner.div px
  dims.map (fun d => .panel name (ch! "dim" ++ natStr d.1) (dimValue p d.2)) ++
  [.panel name (ch! "min_fs") (.int r.x0),
   .panel name (ch! "min_ss") (.int r.y0),
   .panel name (ch! "max_fs") (.int ((r.x1 : Int) - 1)),
   .panel name (ch! "max_ss") (.int ((r.y1 : Int) - 1)),
   .panel name (ch! "fs") (cfVec (f.fs.div px)),
   .panel name (ch! "ss") (cfVec (f.ss.div px)),
   .panel name (ch! "corner_x") (.num c.x),
   .panel name (ch! "corner_y") (.num c.y),
   .panel name (ch! "coffset") (.num c.z)]

/-- One round of the loop over the dimensions, geometry2/crystfel_fmt.py:108-112: the frame dimension, and the others. -/
def dimStep (s : Option Nat × List (Nat × DimName)) (d : DimName × Nat) : Option Nat × List (Nat × DimName) :=
  if d.1 = .name (ch! "frame") then (some d.2, s.2) else (s.1, s.2 ++ [(d.2, d.1)])

/-- The loop over the dimensions, geometry2/crystfel_fmt.py:104-112. -/
def splitDims (dims : List DimName) : Option Nat × List (Nat × DimName) := dims.zipIdx.foldl dimStep (none, [])

/-- The part of the data where a tile is, geometry2/crystfel_fmt.py:119-127: without a dimension for modules they follow each
other along the slow-scan dimension. -/
def cfRegion (d : Det) (dims : List DimName) (p a : Nat) : Region :=
  let r := d.tileSlice a
  if .name (ch! "modno") ∈ dims then r
  else
    let offset := p * d.dataShape.2.1
    { r with y0 := r.y0 + offset, y1 := r.y1 + offset }

/-- `np.array_split(l, k)`: the first `len(l) % k` parts have one element more. -/
def arraySplit {α : Type} (l : List α) (k : Nat) : List (List α) :=
  (List.range k).map (fun i =>
    (l.drop (i * (l.length / k) + min i (l.length % k))).take (l.length / k + if i < l.length % k then 1 else 0))

/-- `get_rigid_groups`, geometry2/crystfel_fmt.py:155-175; empty lines are dropped. -/
def rigidGroups (nModules nTiles nQuads : Nat) : List (CfLine K) :=
  let quads := joinCh ',' ((List.range nQuads).map (fun q => ch! "q" ++ natStr q))
  let modules := joinCh ',' ((List.range nModules).map (fun p => ch! "p" ++ natStr p))
  let names := (List.range nModules).flatMap (fun p => (List.range nTiles).map (fun a => panelName p a))
  (arraySplit names nQuads).zipIdx.map (fun g => .top (ch! "rigid_group_q" ++ natStr g.2) (.text (joinCh ',' g.1))) ++
  (arraySplit names nModules).zipIdx.map (fun g => .top (ch! "rigid_group_p" ++ natStr g.2) (.text (joinCh ',' g.1))) ++
  [.top (ch! "rigid_group_collection_quadrants") (.text quads), .top (ch! "rigid_group_collection_asics") (.text modules)]

/-- A value in the header, or a comment asking to set it, geometry2/crystfel_fmt.py:87-102. -/
def optionLine (key : Str) : Option K → CfLine K
  | none => .comment
  | some x => .top key (.num x)

/-- The line for the mask, geometry2/crystfel_fmt.py:136-137. -/
def maskLine : Option Str → List (CfLine K)
  | none => []
  | some s => if s = [] then [] else [.top (ch! "mask") (.text s)]

/-- The header of the file, geometry2/crystfel_fmt.py:6-28, 135-149. -/
def headerLines (o : CfOptions K) (frame : Nat) (px : K) : List (CfLine K) :=
  [.comment, .top (ch! "data") (.text o.dataPath)] ++ maskLine o.maskPath ++
  [.top (ch! "dim" ++ natStr frame) (.text (ch! "%")), .top (ch! "res") (.num (1 / px)), optionLine (ch! "photon_energy") o.photonEnergy,
   optionLine (ch! "clen") o.clen, optionLine (ch! "adu_per_eV") o.aduPerEv]

/-- The panels of module p, geometry2/crystfel_fmt.py:118-131. -/
def moduleLines (g : Geom K) (o : CfOptions K) (m : List (Frag K) × Nat) : List (CfLine K) :=
  m.1.zipIdx.flatMap (fun t => panelLines t.1 m.2 t.2 (cfRegion g.det o.dims m.2 t.2) (splitDims o.dims).2 g.det.pixelSize)

/-- `write_crystfel_geom`, geometry2/crystfel_fmt.py:79-153: the lines of the file; nothing is written when there is no frame
dimension. -/
def Geom.writeCrystfel (g : Geom K) (o : CfOptions K) : R (List (CfLine K)) :=
  match (splitDims o.dims).1 with
  | none => .error .value
  | some frame =>
    .ok (headerLines o frame g.det.pixelSize ++ rigidGroups g.det.nModules g.det.nTiles 4 ++
      g.modules.zipIdx.flatMap (moduleLines g o))

/-- A panel as `load_crystfel_geometry` returns it: the keys used by `from_panel_dict`, geometry2/__init__.py:34-41. -/
structure CfPanel (K : Type) where
  res : K
  cnx : K
  cny : K
  coffset : K
  ss : Vec K
  fs : Vec K
  minSs : Int
  maxSs : Int
  minFs : Int
  maxFs : Int
  deriving DecidableEq

/-- `from_panel_dict`, geometry2/__init__.py:33-41. -/
def Frag.fromPanel (d : CfPanel K) : Frag K :=
  ⟨Vec.div ⟨d.cnx, d.cny, d.coffset⟩ d.res, d.ss.div d.res, d.fs.div d.res, d.maxSs - d.minSs + 1, d.maxFs - d.minFs + 1⟩

/-- One tile in `from_crystfel_geom`, geometry2/__init__.py:224-225. -/
def tileFromPanels (panels : Str → Option (CfPanel K)) (p a : Nat) : R (Frag K) :=
  match panels (panelName p a) with
  | none => .error .key
  | some d => .ok (Frag.fromPanel d)

/-- `from_crystfel_geom`, geometry2/__init__.py:212-226, from the panels in the file. -/
def fromCrystfel (d : Det) (panels : Str → Option (CfPanel K)) : R (Geom K) :=
  match mapE (fun p => mapE (tileFromPanels panels p) (List.range d.nTiles)) (List.range d.nModules) with
  | .error e => .error e
  | .ok modules => .ok ⟨d, modules⟩

end KD.Geo

/-
The text of CrystFEL geometry files, /repo/karabo_data/geometry2/crystfel_fmt.py. `Model.CrystFEL` has what the lines mean; here are
the characters. How Python writes a float is a parameter.
-/
import Verif.Model.CrystFEL
import Verif.Model.Names

namespace KD.Geo

variable {K : Type} [Field K] [LinearOrder K] [IsStrictOrderedRing K] [FloorRing K]

/-- How numbers are written: `'{}'.format(x)` and `'{:+}'.format(x)`. -/
structure NumFmt (K : Type) where
  plain : K → Str
  signed : K → Str

/-- `_crystfel_format_vec`, geometry2/crystfel_fmt.py:45-51. -/
def vecText (F : NumFmt K) (v : Vec K) : Str :=
  let s := F.signed v.x ++ ch! "x " ++ F.signed v.y ++ ch! "y"
  if v.z ≠ 0 then s ++ ch! " " ++ F.signed v.z ++ ch! "z" else s

/-- A line of the file which sets a value. -/
def setLine (key value : Str) : Str := key ++ ch! " = " ++ value

/-- The text for one dimension, geometry2/crystfel_fmt.py:58-63. -/
def dimText (p : Nat) : DimName → Str
  | .name s => if s = ch! "modno" then natStr p else s
  | .index n => intStr n

/-- `'\n'.join(dim_list)`, geometry2/crystfel_fmt.py:67: an empty line if there are none. -/
def dimsText (name : Str) (p : Nat) (dims : List (Nat × DimName)) : List Str :=
  if dims = [] then [[]] else dims.map (fun d => setLine (name ++ ch! "/dim" ++ natStr d.1) (dimText p d.2))

/-- `frag_to_crystfel`, geometry2/crystfel_fmt.py:31-42, 54-77: the lines of a panel. -/
def panelText (F : NumFmt K) (f : Frag K) (p a : Nat) (r : Region) (dims : List (Nat × DimName)) (px : K) : List Str :=
  let name := panelName p a
  let c := f.corner.div px
  [[]] ++ dimsText name p dims ++
  [setLine (name ++ ch! "/min_fs") (intStr r.x0),
   setLine (name ++ ch! "/min_ss") (intStr r.y0),
   setLine (name ++ ch! "/max_fs") (intStr ((r.x1 : Int) - 1)),
   setLine (name ++ ch! "/max_ss") (intStr ((r.y1 : Int) - 1)),
   setLine (name ++ ch! "/fs") (vecText F (f.fs.div px)),
   setLine (name ++ ch! "/ss") (vecText F (f.ss.div px)),
   setLine (name ++ ch! "/corner_x") (F.plain c.x),
   setLine (name ++ ch! "/corner_y") (F.plain c.y),
   setLine (name ++ ch! "/coffset") (F.plain c.z)]

/-- A value in the header, or a comment asking to set it, geometry2/crystfel_fmt.py:87-102. -/
def optionText (F : NumFmt K) (key : Str) : Option K → Str
  | none => ch! "; " ++ key ++ ch! " = SET ME"
  | some x => setLine key (F.plain x)

/-- The lines for data and mask, geometry2/crystfel_fmt.py:135-138. -/
def pathsText (data : Str) (mask : Option Str) : List Str :=
  (setLine (ch! "data") data ++ ch! " ;") ::
    (match mask with
      | none => []
      | some s => if s = [] then [] else [setLine (ch! "mask") s ++ ch! " ;"])

/-- The header, geometry2/crystfel_fmt.py:6-28, 87-112, 133-149. -/
def headerText (F : NumFmt K) (version : Str) (o : CfOptions K) (frame : Nat) (px : K) : List Str :=
  [ch! "; AGIPD-1M geometry file written by karabo_data " ++ version,
   ch! "; You may need to edit this file to add:",
   ch! "; - data and mask locations in the file",
   ch! "; - mask_good & mask_bad values to interpret the mask",
   ch! "; - adu_per_eV & photon_energy",
   ch! "; - clen (detector distance)",
   ch! ";",
   ch! "; See: http://www.desy.de/~twhite/crystfel/manual-crystfel_geometry.html",
   []] ++ pathsText o.dataPath o.maskPath ++
  [setLine (ch! "dim" ++ natStr frame) (ch! "%"),
   setLine (ch! "res") (F.plain (1 / px)) ++ ch! " ; pixels per metre",
   [],
   ch! "; Beam energy in eV",
   optionText F (ch! "photon_energy") o.photonEnergy,
   [],
   ch! "; Camera length, aka detector distance",
   optionText F (ch! "clen") o.clen,
   [],
   ch! "; Analogue Digital Units per eV",
   optionText F (ch! "adu_per_eV") o.aduPerEv]

/-- `get_rigid_groups`, geometry2/crystfel_fmt.py:155-175. -/
def rigidText (nModules nTiles nQuads : Nat) : List Str :=
  let quads := joinCh ',' ((List.range nQuads).map (fun q => ch! "q" ++ natStr q))
  let modules := joinCh ',' ((List.range nModules).map (fun p => ch! "p" ++ natStr p))
  let names := (List.range nModules).flatMap (fun p => (List.range nTiles).map (fun a => panelName p a))
  [[]] ++ (arraySplit names nQuads).zipIdx.map (fun g => setLine (ch! "rigid_group_q" ++ natStr g.2) (joinCh ',' g.1)) ++
  [[]] ++ (arraySplit names nModules).zipIdx.map (fun g => setLine (ch! "rigid_group_p" ++ natStr g.2) (joinCh ',' g.1)) ++
  [[], setLine (ch! "rigid_group_collection_quadrants") quads, setLine (ch! "rigid_group_collection_asics") modules, []]

/-- The lines of the panels of module p, geometry2/crystfel_fmt.py:118-131. -/
def moduleText (F : NumFmt K) (g : Geom K) (o : CfOptions K) (m : List (Frag K) × Nat) : List Str :=
  m.1.zipIdx.flatMap (fun t => panelText F t.1 m.2 t.2 (cfRegion g.det o.dims m.2 t.2) (splitDims o.dims).2 g.det.pixelSize)

/-- Every line ends with a line break. -/
def unlines (lines : List Str) : Str := lines.flatMap (fun l => l ++ ['\n'])

/-- `write_crystfel_geom`, geometry2/crystfel_fmt.py:79-153: the text in the file. -/
def Geom.crystfelText (F : NumFmt K) (version : Str) (g : Geom K) (o : CfOptions K) : R Str :=
  match (splitDims o.dims).1 with
  | none => .error .value
  | some frame =>
    .ok (unlines (headerText F version o frame g.det.pixelSize ++ rigidText g.det.nModules g.det.nTiles 4 ++
      g.modules.zipIdx.flatMap (moduleText F g o)))

end KD.Geo

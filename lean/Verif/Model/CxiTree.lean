/-
The groups, datasets, soft links and attributes of a CXI file (write_cxi.py).
-/
import Verif.Model.Cxi

namespace KD

variable {V : Type}

/-- What is at a path of an HDF5 file: a group, a dataset (of numbers, of strings, or virtual), or a soft link. -/
inductive CxiNode (V : Type) where
  | group
  | numbers (l : List Nat)
  | strings (l : List Str)
  | layout (l : Layout V)
  | link (target : List Str)

/-- An object with its path and its attribute `axes`. Groups above it are not listed. -/
structure CxiObj (V : Type) where
  path : List Str
  node : CxiNode V
  axes : Option Str

/-- `entry_1/…`, write_cxi.py:177-187. -/
def entryPath (name : Str) : List Str := [ch! "entry_1", name]

/-- `entry_1/instrument_1/detector_1/…`, write_cxi.py:189. -/
def detectorPath (name : Str) : List Str := [ch! "entry_1", ch! "instrument_1", ch! "detector_1", name]

/-- The layout of this name, if there is one: `layouts[name]`, write_cxi.py:185, 190, 205, 211. -/
def Cxi.layout? (x : Cxi V) (name : Str) : Option (Layout V) := x.layouts.find? (fun l => l.name == name)

/-- A virtual dataset with axes, write_cxi.py:184-187, 202-217. -/
def layoutObj (x : Cxi V) (name : Str) (path : List Str) (axes : Str) : List (CxiObj V) :=
  match x.layout? name with
  | none => []
  | some l => [⟨path, .layout l, some axes⟩]

/-- `axes_s`, write_cxi.py:190-194. -/
def axesOf (x : Cxi V) : Str :=
  match x.dataGain with
  | none => ch! "experiment_identifier:module_identifier:y:x"
  | some _ => ch! "experiment_identifier:module_identifier:data_gain:y:x"

/-- The names of gain stages, and the link to them, write_cxi.py:196-200. -/
def gainObjs (x : Cxi V) : List (CxiObj V) :=
  match x.dataGain with
  | none => []
  | some l => [⟨entryPath (ch! "data_gain"), .strings l, none⟩,
      ⟨detectorPath (ch! "data_gain"), .link (entryPath (ch! "data_gain")), none⟩]

/-- What `write` puts into the file, write_cxi.py:176-223, in order. Simplification: HDF5 types are left out. -/
def cxiTree (x : Cxi V) : List (CxiObj V) :=
  [⟨[ch! "cxi_version"], .numbers [150], none⟩,
   ⟨entryPath (ch! "experiment_identifier"), .strings x.experimentIds, none⟩,
   ⟨entryPath (ch! "pulseId"), .numbers x.pulseIds, none⟩,
   ⟨entryPath (ch! "trainId"), .numbers x.trainIds, none⟩] ++
  layoutObj x (ch! "cellId") (entryPath (ch! "cellId")) (ch! "experiment_identifier:module_identifier") ++
  [⟨[ch! "entry_1", ch! "instrument_1", ch! "detector_1"], .group, none⟩] ++
  gainObjs x ++
  layoutObj x (ch! "data") (detectorPath (ch! "data")) (axesOf x) ++
  layoutObj x (ch! "gain") (detectorPath (ch! "gain")) (axesOf x) ++
  layoutObj x (ch! "mask") (detectorPath (ch! "mask")) (axesOf x) ++
  [⟨detectorPath (ch! "experiment_identifier"), .link (entryPath (ch! "experiment_identifier")), none⟩,
   ⟨entryPath (ch! "data_1"), .link [ch! "entry_1", ch! "instrument_1", ch! "detector_1"], none⟩,
   ⟨detectorPath (ch! "module_identifier"), .numbers x.modules, none⟩]

/-- The file written by `write_virtual_cxi(filename)`, components.py:353-366. -/
def Det.cxiTree (d : Det V) (num : V → Nat) (moduleShape : List Nat) : R (List (CxiObj V)) :=
  match d.writeVirtualCxi num moduleShape with
  | .error e => .error e
  | .ok x => .ok (KD.cxiTree x)

/-! ### Finding an object by its path (HDF5, not /repo) -/

/-- The object at this place. -/
def objAt (t : List (CxiObj V)) (path : List Str) : Option (CxiObj V) := t.find? (fun o => o.path == path)

/-- HDF5 goes down a path name by name. A soft link is replaced by its target; more than `n` of them are refused. -/
def resolve (t : List (CxiObj V)) : Nat → List Str → List Str → Option (List Str)
  | _, here, [] => some here
  | n, here, name :: rest =>
    match objAt t (here ++ [name]) with
    | some ⟨_, .link target, _⟩ =>
      match n with
      | 0 => none
      | n + 1 => resolve t n [] (target ++ rest)
    | _ => resolve t n (here ++ [name]) rest
  termination_by n _ l => (n, l.length)

/-- `file[path]`: what a reader finds there. HDF5 follows 16 links unless told otherwise. -/
def openPath (t : List (CxiObj V)) (path : List Str) : Option (CxiObj V) :=
  match resolve t 16 [] path with
  | none => none
  | some q => objAt t q

end KD

/-
What a CrystFEL geometry file says.
-/
import Verif.Model.CrystFEL
import Verif.Spec.Geometry

namespace KD.Geo.Spec

variable {K : Type} [Field K] [LinearOrder K] [IsStrictOrderedRing K] [FloorRing K]

/-- The file gives the key of a panel this value, and no other. -/
def Says (file : List (CfLine K)) (name key : Str) (v : CfVal K) : Prop :=
  .panel name key v ∈ file ∧ ∀ v', .panel name key v' ∈ file → v' = v

/-- The file gives the key (not of a panel) this value, and no other. -/
def SaysTop (file : List (CfLine K)) (key : Str) (v : CfVal K) : Prop := .top key v ∈ file ∧ ∀ v', .top key v' ∈ file → v' = v

/-- The file gives the key of a panel this vector; z is 0 when it is not given. -/
def SaysVec (file : List (CfLine K)) (name key : Str) (v : Vec K) : Prop :=
  ∃ z : Option K, Says file name key (.vec v.x v.y z) ∧ v.z = z.getD 0

/-- A panel as it is read from the file: each value is the one in the file. -/
structure Reads (file : List (CfLine K)) (name : Str) (d : CfPanel K) : Prop where
  res : SaysTop file (ch! "res") (.num d.res)
  cnx : Says file name (ch! "corner_x") (.num d.cnx)
  cny : Says file name (ch! "corner_y") (.num d.cny)
  coffset : Says file name (ch! "coffset") (.num d.coffset)
  ss : SaysVec file name (ch! "ss") d.ss
  fs : SaysVec file name (ch! "fs") d.fs
  minSs : Says file name (ch! "min_ss") (.int d.minSs)
  maxSs : Says file name (ch! "max_ss") (.int d.maxSs)
  minFs : Says file name (ch! "min_fs") (.int d.minFs)
  maxFs : Says file name (ch! "max_fs") (.int d.maxFs)

/-- All panels in the file. -/
def ReadAll (file : List (CfLine K)) (panels : Str → Option (CfPanel K)) : Prop :=
  ∀ name d, panels name = some d ↔ Reads file name d

/-- The name of a panel: module and tile. -/
def panel (p a : Nat) : Str := ch! "p" ++ Nat.toDigits 10 p ++ ch! "a" ++ Nat.toDigits 10 a

/-- The value of a dimension for a panel of module p: the number of the module for the one called modno, otherwise its name or index. -/
def dim (p : Nat) : DimName → CfVal K
  | .name s => if s = ch! "modno" then .int p else .text s
  | .index k => .int k

/-- The names of the panels of modules p0 to p1 (excluded), each with t tiles, in order. -/
def panels (p0 p1 t : Nat) : List Str := (List.range' p0 (p1 - p0)).flatMap (fun p => (List.range t).map (panel p))

end KD.Geo.Spec

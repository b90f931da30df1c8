/-
Assembling several images at once: `position_modules_fast` and `output_array_for_position_fast` of
/repo/karabo_data/geometry2/__init__.py for arrays with leading dimensions (for instance pulses). Model/Geometry.lean has the
loops; there an element can be anything, here it is what an array has over the leading dimensions.
-/
import Verif.Model.Geometry
import Verif.Model.NdArray

namespace KD.Geo

variable {V : Type} {K : Type} [Field K] [LinearOrder K] [IsStrictOrderedRing K] [FloorRing K]

/-- `shape[:-3]` and the three numbers of `shape[-3:]`; nothing for fewer dimensions. -/
def lastThree (shape : List Nat) : Option (List Nat × Nat × Nat × Nat) :=
  match shape.reverse with
  | w :: h :: n :: rest => some (rest.reverse, n, h, w)
  | _ => none

/-- `shape[:-2]` and the two numbers of `shape[-2:]`. -/
def lastTwo (shape : List Nat) : Option (List Nat × Nat × Nat) :=
  match shape.reverse with
  | w :: h :: rest => some (rest.reverse, h, w)
  | _ => none

/-- An array over the leading dimensions for each element of a plane, as one array. -/
def fromPlane (dtype : Nat) (lead : List Nat) (p : Plane (List Nat → V)) : Arr V :=
  ⟨dtype, lead ++ [p.h, p.w], fun idx => p.get (idx.getD lead.length 0) (idx.getD (lead.length + 1) 0) (idx.take lead.length)⟩

/-- `make_output_array` with `extra_shape`, geometry2/__init__.py:911-915; `nan` is what `np.nan` becomes in the dtype. -/
def Snapped.outputArray (s : Snapped) (extra : List Nat) (dtype : Nat) (nan : V) : Arr V :=
  Arr.full dtype (extra ++ [s.size.1.toNat, s.size.2.toNat]) nan

/-- `output_array_for_position_fast(extra_shape, dtype)`, geometry2/__init__.py:289-307. -/
def Geom.outputArray (g : Geom K) (rowStep : K) (extra : List Nat) (dtype : Nat) (nan : V) : R (Arr V) :=
  match g.snapped rowStep with
  | .error e => .error e
  | .ok s => .ok (s.outputArray extra dtype nan)

/-- `position_modules`, geometry2/__init__.py:917-939. Without enough dimensions, and with an output array which has not
the leading dimensions of the data, one of the assertions in lines 920 and 924 fails. -/
def Snapped.positionArray (s : Snapped) (safe : Nat → Nat → Bool) (nan : Nat → V) (data : Arr V) (out : Option (Arr V)) :
    R (Arr V × (Int × Int)) :=
  match lastThree data.shape with
  | none => .error .assertion
  | some (lead, n, h, w) =>
    let planes : Stack (List Nat → V) := ⟨data.dtype, n, h, w, fun m i j l => data.get (l ++ [m, i, j])⟩
    match out with
    | none => (s.positionModules safe (fun dt _ => nan dt) planes none).map (fun r => (fromPlane data.dtype lead r.1, r.2))
    | some o =>
      match lastTwo o.shape with
      | none => .error .assertion
      | some (lead', hh, ww) =>
        if lead' = lead then
          (s.positionModules safe (fun dt _ => nan dt) planes (some (o.dtype, ⟨hh, ww, fun y x l => o.get (l ++ [y, x])⟩))).map
            (fun r => (fromPlane o.dtype lead r.1, r.2))
        else .error .assertion

/-- `position_modules_fast`, geometry2/__init__.py:309-338, for arrays with any number of dimensions. -/
def Geom.positionArray (g : Geom K) (rowStep : K) (safe : Nat → Nat → Bool) (nan : Nat → V) (data : Arr V) (out : Option (Arr V)) :
    R (Arr V × (Int × Int)) :=
  match g.snapped rowStep with
  | .error e => .error e
  | .ok s => s.positionArray safe nan data out

end KD.Geo

/-
numpy arrays with any number of dimensions, as far as /repo/karabo_data/stacking.py uses them. Nothing in this file models
karabo_data itself: it is the documented meaning of numpy operations.
-/
import Verif.Model.Py

namespace KD

variable {V : Type}

/-- An array: its dtype (a number standing for it), its shape, and its elements by multi-index. Only the elements at
indices inside the shape mean anything. -/
structure Arr (V : Type) where
  dtype : Nat
  shape : List Nat
  get : List Nat → V

/-- `np.full(shape, fill, dtype)`, with the fill value already converted to the dtype. -/
def Arr.full (dtype : Nat) (shape : List Nat) (fill : V) : Arr V := ⟨dtype, shape, fun _ => fill⟩

/-- `arr[m] = a` for an array `arr` with the shape `(n,) + a.shape`: the new elements. -/
def assignFirst (g : List Nat → V) (m : Nat) (a : Arr V) : List Nat → V
  | [] => g []
  | j :: rest => if j = m then a.get rest else g (j :: rest)

/-- An axis given as a Python integer, in an array of `ndim` dimensions; AxisError is a ValueError. -/
def normAxis (axis : Int) (ndim : Nat) : R Nat :=
  let k := if axis < 0 then axis + ndim else axis
  if 0 ≤ k ∧ k < ndim then .ok k.toNat else .error .value

/-- `np.moveaxis(a, 0, k)` for an axis already normalised. -/
def Arr.moveFirst (a : Arr V) (k : Nat) : Arr V :=
  match a.shape with
  | [] => a
  | n :: rest => ⟨a.dtype, rest.take k ++ n :: rest.drop k, fun idx => a.get (idx.getD k 0 :: (idx.take k ++ idx.drop (k + 1)))⟩

/-- `np.stack(arrays, axis)`: ValueError without arrays or with different shapes. The dtypes are the same. -/
def npStack (arrays : List (Arr V)) (axis : Int) : R (Arr V) :=
  match arrays with
  | [] => .error .value
  | a :: rest =>
    if rest.all (fun b => b.shape = a.shape) then
      match normAxis axis (a.shape.length + 1) with
      | .error e => .error e
      | .ok k => .ok ⟨a.dtype, a.shape.take k ++ arrays.length :: a.shape.drop k,
          fun idx => (arrays.getD (idx.getD k 0) a).get (idx.take k ++ idx.drop (k + 1))⟩
    else .error .value

/-- One item of an index: an integer, a slice or an ellipsis. -/
inductive Ix where
  | int (i : Int)
  | slice (start stop step : Option Int)
  | ellipsis
  deriving DecidableEq, Repr

/-- `slice(None, None)`. -/
def Ix.full : Ix := .slice none none none

/-- What one item selects in one dimension: one position, or a list of positions. -/
inductive Pick where
  | one (i : Nat)
  | many (l : List Nat)
  deriving DecidableEq, Repr

/-- One item applied to a dimension of size n. -/
def pickDim : Ix → Nat → R Pick
  | .int i, n =>
    let j := if i < 0 then i + n else i
    if 0 ≤ j ∧ j < n then .ok (.one j.toNat) else .error .index
  | .slice a b s, n =>
    match slicePositions a b s n with
    | .error e => .error e
    | .ok l => .ok (.many l)
  | .ellipsis, _ => .error .index

/-- The items applied to the dimensions one by one. -/
def pickDims : List Ix → List Nat → R (List Pick)
  | [], [] => .ok []
  | x :: xs, n :: ns =>
    match pickDim x n with
    | .error e => .error e
    | .ok p =>
      match pickDims xs ns with
      | .error e => .error e
      | .ok ps => .ok (p :: ps)
  | _, _ => .error .index

/-- The shape of the result. -/
def pickShape : List Pick → List Nat
  | [] => []
  | .one _ :: ps => pickShape ps
  | .many l :: ps => l.length :: pickShape ps

/-- The index into the array which belongs to an index into the result. -/
def pickIndex : List Pick → List Nat → List Nat
  | [], _ => []
  | .one i :: ps, idx => i :: pickIndex ps idx
  | .many l :: ps, [] => l.getD 0 0 :: pickIndex ps []
  | .many l :: ps, j :: idx => l.getD j 0 :: pickIndex ps idx

/-- The array of the selected elements. -/
def Arr.pick (a : Arr V) (ps : List Pick) : Arr V := ⟨a.dtype, pickShape ps, fun idx => a.get (pickIndex ps idx)⟩

/-- An index with one ellipsis or too few items, completed for `ndim` dimensions. -/
def expandIx (ixs : List Ix) (ndim : Nat) : List Ix :=
  if .ellipsis ∈ ixs then
    ixs.take (ixs.idxOf .ellipsis) ++ List.replicate (ndim + 1 - ixs.length) Ix.full ++ ixs.drop (ixs.idxOf .ellipsis + 1)
  else ixs ++ List.replicate (ndim - ixs.length) Ix.full

/-- `a[ixs]`, numpy's basic indexing: IndexError with several ellipses, too many items, or an integer out of range. -/
def Arr.index (a : Arr V) (ixs : List Ix) : R (Arr V) :=
  if ixs.count .ellipsis > 1 ∨ (expandIx ixs a.shape.length).length ≠ a.shape.length then .error .index
  else
    match pickDims (expandIx ixs a.shape.length) a.shape with
    | .error e => .error e
    | .ok ps => .ok (a.pick ps)

end KD

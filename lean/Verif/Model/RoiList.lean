/-
Model of the region of interest in `DataCollection.get_array`, /repo/karabo_data/reader.py:620-714, when it has a list of
indices, like `by_index[[0, 3], :8]`. numpy (which finds the shape of the result) and h5py (which reads) have different rules for
lists.
Simplification: one list of integers which are not negative. With several lists h5py raises TypeError.
-/
import Verif.Model.Roi

namespace KD

variable {V X : Type}

/-- `by_index[pre..., list, post...]`. -/
structure ListRoi where
  pre : List Ix
  list : List Nat
  post : List Ix
  deriving DecidableEq, Repr

/-- The items with `:` in the place of the list. -/
def ListRoi.plain (r : ListRoi) : List Ix := r.pre ++ Ix.full :: r.post

/-- The dimension to which the list belongs, in an array of `ndim` dimensions. -/
def ListRoi.axis (r : ListRoi) (ndim : Nat) : Nat := if .ellipsis ∈ r.pre then ndim - r.post.length - 1 else r.pre.length

/-- Is it an integer? -/
def Ix.isInt : Ix → Bool
  | .int _ => true
  | _ => false

/-- Is there a slice or an ellipsis between the list and some integer? -/
def ListRoi.split (r : ListRoi) : Bool := (r.pre.reverse.dropWhile Ix.isInt).any Ix.isInt || (r.post.dropWhile Ix.isInt).any Ix.isInt

/-- The number of dimensions of the result which come from the first k items. -/
def dimsBefore (ps : List Pick) (k : Nat) : Nat := (pickShape (ps.take k)).length

/-- `np.moveaxis(a, k, 0)`. -/
def Arr.moveToFront (a : Arr V) (k : Nat) : Arr V :=
  ⟨a.dtype, a.shape.getD k 0 :: a.shape.eraseIdx k, fun idx => match idx with
    | [] => a.get []
    | i :: rest => a.get (rest.take k ++ i :: rest.drop k)⟩

/-- `a[pre..., list, post...]`, numpy's advanced indexing: the list selects in its dimension. If a slice or an ellipsis is between
it and some integer, its dimension becomes the first one. `checks` says if indices out of range in the list raise IndexError even
when the result has no elements, which depends on the version of numpy.
Simplification: integers out of range always raise IndexError. -/
def Arr.indexList (checks : Bool) (a : Arr V) (r : ListRoi) : R (Arr V) :=
  if r.plain.count .ellipsis > 1 ∨ (expandIx r.plain a.shape.length).length ≠ a.shape.length then .error .index
  else
    match pickDims (expandIx r.plain a.shape.length) a.shape with
    | .error e => .error e
    | .ok ps =>
      let k := r.axis a.shape.length
      let b := a.pick (ps.set k (.many r.list))
      if (∀ i ∈ r.list, i < a.shape.getD k 0) ∨ checks = false ∧ 0 ∈ b.shape then
        .ok (if r.split then b.moveToFront (dimsBefore ps k) else b)
      else .error .index

/-- `np.index_exp[:] + roi`, reader.py:687. -/
def ListRoi.under (r : ListRoi) : ListRoi := { r with pre := Ix.full :: r.pre }

/-- `roi_dummy[np.index_exp[:] + roi].shape[1:]`, reader.py:686-687. -/
def listRoiShape (checks : Bool) (r : ListRoi) (shape : List Nat) : R (List Nat) :=
  match (Arr.full 0 (0 :: shape) ()).indexList checks r.under with
  | .error e => .error e
  | .ok d => .ok (d.shape.drop 1)

/-- h5py's `FancySelection` for all dimensions but the first: TypeError if the list does not increase, ValueError for an index out
of range. -/
def h5ListPicks (r : ListRoi) (shape : List Nat) : R (List Pick) :=
  if r.list.Pairwise (· < ·) then
    match h5PickDims ((expandIx r.under.plain (shape.length + 1)).drop 1) shape with
    | .error e => .error e
    | .ok ps =>
      if ∀ i ∈ r.list, i < shape.getD (r.axis shape.length) 0 then .ok (ps.set (r.axis shape.length) (.many r.list))
      else .error .value
  else .error .type

/-- Reading one chunk with a list, reader.py:693-702. `h5Empty` is what `read_direct` does for a region without elements. `h5Odd` is
what it does when the result has no elements because numpy put the dimension of the list first: it raises an exception, because the
shapes do not fit, or it reads nothing. -/
def readChunkList (h5Empty h5Odd : R Unit) (r : ListRoi) (ch : Chunk (List Nat → X)) :
    R (Option (List (List Nat → X) × List Nat)) :=
  let n := ch.counts.sum
  if n = 0 then .ok none
  else
    match ch.dataset with
    | .error e => .error e
    | .ok ds =>
      match h5ListPicks r ds.rowShape with
      | .error e => .error e
      | .ok ps =>
        match h5Fill n ((sl ds.rows ch.first (ch.first + n)).map (fun row idx => row (pickIndex ps idx))) with
        | .error e => .error e
        | .ok rows =>
          match if r.split then h5Odd else if 0 ∈ pickShape ps then h5Empty else .ok () with
          | .error e => .error e
          | .ok () => .ok (some (rows, expandTrainIds ch.counts ch.trainIds))

/-- `get_array(source, key, roi=by_index[pre..., list, post...])`, reader.py:620-714. -/
def DC.getArrayList (checks : Bool) (h5Empty h5Odd : R Unit) (c : DC (List Nat → X)) (source key : Str) (r : ListRoi) :
    R (LArr (List Nat → X)) :=
  match c.checkField source key with
  | .error e => .error e
  | .ok () =>
    match c.findDataChunks source key with
    | .error e => .error e
    | .ok cs =>
      let chunks := sortBy Chunk.sortKey cs
      match mapE Chunk.dataset chunks with
      | .error e => .error e
      | .ok dss =>
        let shapes := (dss.map Dataset.rowShape).dedup
        let dtypes := (dss.map Dataset.dtype).dedup
        if shapes.length > 1 then .error .generic
        else if dtypes.length > 1 then .error .generic
        else
          match shapes, dtypes with
          | shape :: _, dtype :: _ =>
            match listRoiShape checks r shape with
            | .error e => .error e
            | .ok rshape =>
              match mapE (readChunkList h5Empty h5Odd r) chunks with
              | .error e => .error e
              | .ok parts =>
                let parts := parts.filterMap id
                .ok ⟨(parts.map Prod.fst).flatten,
                  if (chunks.map (fun ch => ch.counts.sum)).sum = 0 then none
                  else some (parts.map Prod.snd).flatten,
                  rshape, dtype⟩
          | _, _ => .error .key

end KD

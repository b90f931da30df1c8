/-
Model of the region of interest in `DataCollection.get_array`, /repo/karabo_data/reader.py:620-714. In `Model.Collection` the
region is an arbitrary function on entries; here it is what the user writes, `by_index[...]`, with numpy's and
h5py's reading of it.
-/
import Verif.Model.Collection
import Verif.Model.NdArray

namespace KD

variable {X : Type}

/-- The argument `roi`: `by_index[...]` with integers, slices and ellipses, or something else.
Simplification: one list of indices is in `Model.RoiList`; several lists, arrays, masks and None are not modelled. -/
inductive RoiArg where
  | byIndex (ixs : List Ix)
  | other
  deriving DecidableEq, Repr

/-- h5py's reading of one item for a dimension of size n (h5py's `_translate_int` and `_translate_slice`): ValueError for
an integer out of range and for steps below 1. -/
def h5PickDim : Ix → Nat → R Pick
  | .int i, n =>
    let j := if i < 0 then i + n else i
    if 0 ≤ j ∧ j < n then .ok (.one j.toNat) else .error .value
  | .slice a b s, n =>
    if s.getD 1 < 1 then .error .value
    else
      match slicePositions a b s n with
      | .error e => .error e
      | .ok l => .ok (.many l)
  | .ellipsis, _ => .error .type

/-- The items for all dimensions but the first, `source_sel=slices`, reader.py:701-702. -/
def h5PickDims : List Ix → List Nat → R (List Pick)
  | [], [] => .ok []
  | x :: xs, n :: ns =>
    match h5PickDim x n with
    | .error e => .error e
    | .ok p =>
      match h5PickDims xs ns with
      | .error e => .error e
      | .ok ps => .ok (p :: ps)
  | _, _ => .error .type

/-- `roi_dummy[np.index_exp[:] + roi].shape[1:]`, reader.py:685-686: the shape of an entry of the result. -/
def roiShape (roi : List Ix) (shape : List Nat) : R (List Nat) :=
  match (Arr.full 0 (0 :: shape) ()).index (Ix.full :: roi) with
  | .error e => .error e
  | .ok d => .ok (d.shape.drop 1)

/-- Reading one chunk with a region, reader.py:693-702. `h5Empty` is what `read_direct` does for a region without elements:
it reads nothing or raises an exception, depending on the version of h5py. -/
def readChunkRoi (h5Empty : R Unit) (roi : List Ix) (ch : Chunk (List Nat → X)) :
    R (Option (List (List Nat → X) × List Nat)) :=
  let n := ch.counts.sum
  if n = 0 then .ok none
  else
    match ch.dataset with
    | .error e => .error e
    | .ok ds =>
      match h5PickDims ((expandIx (Ix.full :: roi) (ds.rowShape.length + 1)).drop 1) ds.rowShape with
      | .error e => .error e
      | .ok ps =>
        match h5Fill n ((sl ds.rows ch.first (ch.first + n)).map (fun row idx => row (pickIndex ps idx))) with
        | .error e => .error e
        | .ok rows =>
          match if 0 ∈ pickShape ps then h5Empty else .ok () with
          | .error e => .error e
          | .ok () => .ok (some (rows, expandTrainIds ch.counts ch.trainIds))

/-- `get_array(source, key, roi=roi)`, reader.py:620-714. Here an entry is a function which gives its elements by index. -/
def DC.getArrayRoi (h5Empty : R Unit) (c : DC (List Nat → X)) (source key : Str) (roi : RoiArg) : R (LArr (List Nat → X)) :=
  match c.checkField source key with
  | .error e => .error e
  | .ok () =>
    match roi with
    | .other => .error .type
    | .byIndex roi =>
      match c.findDataChunks source key with
      | .error e => .error e
      | .ok cs =>
        let chunks := sortBy Chunk.sortKey cs
        match mapE Chunk.dataset chunks with
        | .error e => .error e
        | .ok dss =>
          let shapes := (dss.map Dataset.rowShape).dedup
          let dtypes := (dss.map Dataset.dtype).dedup
          if shapes.length > 1 then .error .generic
          else if dtypes.length > 1 then .error .generic
          else
            match shapes, dtypes with
            | shape :: _, dtype :: _ =>
              match roiShape roi shape with
              | .error e => .error e
              | .ok rshape =>
                match mapE (readChunkRoi h5Empty roi) chunks with
                | .error e => .error e
                | .ok parts =>
                  let parts := parts.filterMap id
                  let rows := (parts.map Prod.fst).flatten
                  .ok ⟨rows,
                    if (chunks.map (fun ch => ch.counts.sum)).sum = 0 then none
                    else some (parts.map Prod.snd).flatten,
                    rshape, dtype⟩
            | _, _ => .error .key

end KD

/- Model of `get_array` with a boolean mask as region of interest, karabo_data/reader.py:620-714. -/
import Verif.Model.RoiList

namespace KD

variable {X : Type}

/-- `by_index[pre..., mask, post...]`, where the mask is a numpy array of booleans with one dimension: `roi.value`,
reader.py:654-659. -/
structure MaskRoi where
  pre : List Ix
  mask : List Bool
  post : List Ix
  deriving DecidableEq, Repr

/-- The region with `mask.nonzero()[0]` in the place of the mask, which is what numpy and h5py use
(reader.py:686-702). -/
def MaskRoi.places (r : MaskRoi) : ListRoi := ⟨r.pre, nonzero r.mask, r.post⟩

/-- `roi_dummy[np.index_exp[:] + roi].shape[1:]`, reader.py:686-687. numpy (1.13 or later) raises IndexError if the length of the mask
is not the size of its dimension. -/
def maskRoiShape (checks : Bool) (r : MaskRoi) (shape : List Nat) : R (List Nat) :=
  if r.mask.length = shape.getD (r.places.axis shape.length) 0 then listRoiShape checks r.places shape else .error .index

/-- `get_array(source, key, roi=by_index[pre..., mask, post...])`, reader.py:620-714. h5py replaces the mask by `mask.nonzero()[0]`, so chunks are read
as with a list of indices. -/
def DC.getArrayMask (checks : Bool) (h5Empty h5Odd : R Unit) (c : DC (List Nat → X)) (source key : Str) (r : MaskRoi) :
    R (LArr (List Nat → X)) :=
  match c.checkField source key with
  | .error e => .error e
  | .ok () =>
    match c.findDataChunks source key with
    | .error e => .error e
    | .ok cs =>
      let chunks := sortBy Chunk.sortKey cs
      match mapE Chunk.dataset chunks with
      | .error e => .error e
      | .ok dss =>
        let shapes := (dss.map Dataset.rowShape).dedup
        let dtypes := (dss.map Dataset.dtype).dedup
        if shapes.length > 1 then .error .generic
        else if dtypes.length > 1 then .error .generic
        else
          match shapes, dtypes with
          | shape :: _, dtype :: _ =>
            match maskRoiShape checks r shape with
            | .error e => .error e
            | .ok rshape =>
              match mapE (readChunkList h5Empty h5Odd r.places) chunks with
              | .error e => .error e
              | .ok parts =>
                let parts := parts.filterMap id
                .ok ⟨(parts.map Prod.fst).flatten,
                  if (chunks.map (fun ch => ch.counts.sum)).sum = 0 then none
                  else some (parts.map Prod.snd).flatten,
                  rshape, dtype⟩
          | _, _ => .error .key

end KD

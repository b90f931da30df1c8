/- Property C159: a boolean mask as region of interest. -/
import Verif.Model.RoiMask
import Verif.Spec.RoiMask
import Verif.Props.RoiList

namespace KD
open Spec

variable {X : Type}

theorem mask_parts (checks : Bool) (h5Empty h5Odd : R Unit) (c : DC (List Nat → X)) (source key : Str) (r : MaskRoi) :
    (∃ e, c.getArrayMask checks h5Empty h5Odd source key r = .error e ∧ c.getArray source key id = .error e) ∨
    ∃ chunks shape dtype,
      (c.getArray source key id = match mapE (readChunk id) chunks with
        | .error e => .error e
        | .ok parts => .ok (joinParts chunks shape dtype parts)) ∧
      (c.getArrayList checks h5Empty h5Odd source key r.places =
          match listRoiShape checks r.places shape with
        | .error e => .error e
        | .ok rshape => match mapE (readChunkList h5Empty h5Odd r.places) chunks with
          | .error e => .error e
          | .ok parts => .ok (joinParts chunks rshape dtype parts)) ∧
      c.getArrayMask checks h5Empty h5Odd source key r = match maskRoiShape checks r shape with
        | .error e => .error e
        | .ok rshape => match mapE (readChunkList h5Empty h5Odd r.places) chunks with
          | .error e => .error e
          | .ok parts => .ok (joinParts chunks rshape dtype parts) := by
  unfold DC.getArray DC.getArrayMask DC.getArrayList
  cases c.checkField source key with
  | error e => exact Or.inl ⟨e, rfl, rfl⟩
  | ok u =>
    simp only
    cases c.findDataChunks source key with
    | error e => exact Or.inl ⟨e, rfl, rfl⟩
    | ok cs =>
      simp only
      generalize sortBy Chunk.sortKey cs = chunks
      cases hd : mapE Chunk.dataset chunks with
      | error e => exact Or.inl ⟨e, rfl, rfl⟩
      | ok dss =>
        simp only
        split
        · exact Or.inl ⟨_, rfl, rfl⟩
        split
        · exact Or.inl ⟨_, rfl, rfl⟩
        cases hs : (dss.map Dataset.rowShape).dedup with
        | nil => exact Or.inl ⟨_, rfl, rfl⟩
        | cons shape ss =>
          cases ht : (dss.map Dataset.dtype).dedup with
          | nil => exact Or.inl ⟨_, rfl, rfl⟩
          | cons dtype ts =>
            refine Or.inr ⟨chunks, shape, dtype, ?_, ?_, ?_⟩
            · cases mapE (readChunk id) chunks <;> rfl
            · simp only
              cases listRoiShape checks r.places shape with
              | error e => rfl
              | ok rs => cases mapE (readChunkList h5Empty h5Odd r.places) chunks <;> rfl
            · simp only
              cases maskRoiShape checks r shape with
              | error e => rfl
              | ok rs => cases mapE (readChunkList h5Empty h5Odd r.places) chunks <;> rfl

theorem maskFits_iff {r : MaskRoi} {shape : List Nat} (h2 : (expandIx r.places.plain shape.length).length = shape.length) :
    MaskFits r shape ↔ r.mask.length = shape.getD (r.places.axis shape.length) 0 := by
  obtain ⟨hlt, hpost⟩ := axis_lt h2
  rw [List.getD_eq_getElem?_getD, List.getElem?_eq_getElem hlt, Option.getD_some]
  unfold MaskFits
  by_cases hp : Ix.ellipsis ∈ r.pre
  · have hax : r.places.axis shape.length = shape.length - 1 - r.post.length := by
      unfold ListRoi.axis MaskRoi.places
      rw [if_pos hp]
      simp only
      omega
    have hq : r.post.length + 1 ≤ shape.length := hpost hp
    simp only [hp, not_true_eq_false, false_and, true_and, false_or, hax]
    rw [List.getElem?_reverse (by omega), List.getElem?_eq_getElem (by omega), Option.some.injEq]
    exact eq_comm
  · have hax : r.places.axis shape.length = r.pre.length := by
      unfold ListRoi.axis MaskRoi.places
      rw [if_neg hp]
    rw [hax] at hlt
    simp only [hp, not_false_eq_true, false_and, true_and, or_false, hax]
    rw [List.getElem?_eq_getElem hlt, Option.some.injEq]
    exact eq_comm

theorem truePlaces_nonzero {mask : List Bool} {ps : List Nat} (h : TruePlaces mask ps) : ps = nonzero mask :=
  h.increase.eq_of_mem_iff (nonzero_pairwise mask) (fun i => by rw [h.all, mem_nonzero])

/-- C159. A mask in a region, beside integers, slices and an ellipsis: if it is as long as its dimension, the result is that for the
list of the places with `True` (C153), and otherwise IndexError is raised. -/
theorem get_array_mask_as_list {checks : Bool} {h5Empty h5Odd : R Unit} {c : DC (List Nat → X)} {source key : Str} {r : MaskRoi}
    {w : LArr (List Nat → X)} (hw : c.getArray source key id = .ok w) :
    (MaskFits r w.rowShape → ∀ ps, TruePlaces r.mask ps →
      c.getArrayMask checks h5Empty h5Odd source key r = c.getArrayList checks h5Empty h5Odd source key ⟨r.pre, ps, r.post⟩) ∧
    (¬ MaskFits r w.rowShape → c.getArrayMask checks h5Empty h5Odd source key r = .error .index) := by
  rcases mask_parts checks h5Empty h5Odd c source key r with ⟨e, -, he⟩ | ⟨chunks, shape, dtype, hw', hl, hm⟩
  · rw [he] at hw; simp at hw
  have hww : w.rowShape = shape := by
    rw [hw'] at hw
    split at hw
    · simp at hw
    · obtain rfl := Except.ok.inj hw
      rfl
  rw [hww]
  by_cases h2 : (expandIx r.places.plain shape.length).length = shape.length
  · rw [maskFits_iff h2]
    refine ⟨fun hf ps hps => ?_, fun hf => ?_⟩
    · rw [truePlaces_nonzero hps, hm, maskRoiShape, if_pos hf]
      exact hl.symm
    · rw [hm, maskRoiShape, if_neg hf]
  · have hle : listRoiShape checks r.places shape = .error .index := by
      rw [listRoiShape_eq, if_pos (Or.inr h2)]
    have hme : maskRoiShape checks r shape = .error .index := by
      unfold maskRoiShape
      split
      exacts [hle, rfl]
    rw [hme] at hm
    rw [hle] at hl
    refine ⟨fun _ ps hps => ?_, fun _ => hm⟩
    rw [truePlaces_nonzero hps, hm]
    exact hl.symm

theorem mask_list {checks : Bool} {h5Empty h5Odd : R Unit} {c : DC (List Nat → X)} {source key : Str} {r : MaskRoi}
    {a : LArr (List Nat → X)} (h : c.getArrayMask checks h5Empty h5Odd source key r = .ok a) :
    c.getArrayList checks h5Empty h5Odd source key r.places = .ok a := by
  rcases mask_parts checks h5Empty h5Odd c source key r with ⟨e, h1, -⟩ | ⟨chunks, shape, dtype, -, hl, hm⟩
  · rw [h1] at h; simp at h
  rw [hm] at h
  by_cases hf : r.mask.length = shape.getD (r.places.axis shape.length) 0
  · rw [maskRoiShape, if_pos hf] at h
    rw [hl, h]
  · rw [maskRoiShape, if_neg hf] at h
    simp at h

theorem maskFits_alone {mask : List Bool} {shape : List Nat} : MaskFits ⟨[], mask, []⟩ shape ↔ shape.head? = some mask.length := by
  cases shape <;> simp [MaskFits]

/-- C159. If `get_array(source, key, roi=by_index[mask])` gives an array, the mask is as long as the first dimension of each entry,
and along this dimension the result has the places with `True`, in order. Labels are those of `get_array` without region. -/
theorem get_array_mask {checks : Bool} {h5Empty h5Odd : R Unit} {c : DC (List Nat → X)} {source key : Str} {mask : List Bool}
    {a : LArr (List Nat → X)} (h : c.getArrayMask checks h5Empty h5Odd source key ⟨[], mask, []⟩ = .ok a) :
    ∃ w rest ps, c.getArray source key id = .ok w ∧ w.rowShape = mask.length :: rest ∧ TruePlaces mask ps ∧
      a.rowShape = ps.length :: rest ∧ a.coords = w.coords ∧ a.rows.length = w.rows.length ∧
      ∀ (k : Nat) (hk : k < a.rows.length) (hk' : k < w.rows.length) (j : Nat) (hj : j < ps.length) (idx : List Nat),
        List.Forall₂ (· < ·) idx rest → a.rows[k] (j :: idx) = w.rows[k] (ps[j] :: idx) := by
  have h' : c.getArrayList checks h5Empty h5Odd source key ⟨[], nonzero mask, []⟩ = .ok a :=
    mask_list (r := ⟨[], mask, []⟩) h
  obtain ⟨w, n, rest, hw, hws, hsh, hco, hlen, hel⟩ := get_array_list_elements h'
  have hf : MaskFits ⟨[], mask, []⟩ w.rowShape := by
    by_contra hf
    rw [(get_array_mask_as_list hw).2 hf] at h
    simp at h
  rw [maskFits_alone, hws, List.head?_cons, Option.some.injEq] at hf
  exact ⟨w, rest, nonzero mask, hw, by rw [hws, hf], ⟨nonzero_pairwise mask, fun i => mem_nonzero⟩, hsh, hco, hlen,
    fun k hk hk' j hj idx hidx => (hel k hk hk' j hj idx hidx).2⟩

/-- C159. A mask which is not as long as the first dimension of each entry is refused with IndexError, and so is any mask for entries
which are single numbers. -/
theorem get_array_mask_length {checks : Bool} {h5Empty h5Odd : R Unit} {c : DC (List Nat → X)} {source key : Str} {mask : List Bool}
    {w : LArr (List Nat → X)} (hw : c.getArray source key id = .ok w) (hn : w.rowShape.head? ≠ some mask.length) :
    c.getArrayMask checks h5Empty h5Odd source key ⟨[], mask, []⟩ = .error .index :=
  (get_array_mask_as_list hw).2 (fun h => hn (maskFits_alone.1 h))

/-- C159. A mask as long as the first dimension of each entry is accepted if it has a `True` somewhere and there is data. -/
theorem get_array_mask_succeeds {checks : Bool} {h5Empty h5Odd : R Unit} {c : DC (List Nat → X)} {source key : Str} {mask : List Bool}
    {w : LArr (List Nat → X)} {rest : List Nat} (hw : c.getArray source key id = .ok w) (hs : w.rowShape = mask.length :: rest)
    (ht : true ∈ mask) (hr : w.rows ≠ []) (h0 : 0 ∉ rest) :
    ∃ a, c.getArrayMask checks h5Empty h5Odd source key ⟨[], mask, []⟩ = .ok a := by
  have hex : ∀ k, expandIx [Ix.full] k = Ix.full :: List.replicate (k - 1) Ix.full := by
    intro k
    unfold expandIx
    rw [if_neg (by decide)]
    rfl
  have hnz : nonzero mask ≠ [] := by
    obtain ⟨i, hi⟩ := List.getElem?_of_mem ht
    exact List.ne_nil_of_mem (mem_nonzero.2 hi)
  obtain ⟨b, hb, hbs⟩ : ∃ b, (wholeArr w).indexList checks (⟨[], nonzero mask, []⟩ : ListRoi).under = .ok b ∧ 0 ∉ b.shape := by
    have hp := pickDims_fulls (mask.length :: rest)
    rw [List.length_cons, List.replicate_succ] at hp
    have hin : ∀ i ∈ nonzero mask, i < mask.length := by
      intro i hi
      exact (List.getElem?_eq_some_iff.1 (mem_nonzero.1 hi)).1
    rw [indexList_full checks (wholeArr w) rfl]
    have hpl : (⟨[], nonzero mask, []⟩ : ListRoi).plain = [Ix.full] := rfl
    have hax : (⟨[], nonzero mask, []⟩ : ListRoi).axis (mask.length :: rest).length = 0 := rfl
    have hsp : (⟨[], nonzero mask, []⟩ : ListRoi).split = false := rfl
    rw [List.length_cons] at hax
    rw [hpl, hs, hex]
    simp only [List.length_cons, Nat.add_sub_cancel, hp, hax, hsp, List.map_cons, List.set_cons_zero, List.getD_cons_zero]
    rw [if_neg (by simp [show List.count Ix.ellipsis [Ix.full] ≤ 1 by decide]), if_pos (Or.inl hin)]
    refine ⟨_, rfl, ?_⟩
    rw [if_neg (by decide)]
    simp only [wholeArr, Arr.pick, pickShape, pickShape_fulls, List.length_range, List.mem_cons, not_or]
    refine ⟨?_, ?_, h0⟩
    · intro h; exact hr (List.length_eq_zero_iff.1 h.symm)
    · intro h; exact hnz (List.length_eq_zero_iff.1 h.symm)
  obtain ⟨a, ha⟩ := get_array_list_succeeds (h5Empty := h5Empty) (h5Odd := h5Odd) ⟨[], [], [], [], rfl, rfl, by simp⟩ hw hb
    (increasing_iff.2 (nonzero_pairwise mask)) ⟨by simp [Backwards], by simp [Backwards]⟩ hbs
  refine ⟨a, ?_⟩
  rw [(get_array_mask_as_list hw).1 (maskFits_alone.2 (by rw [hs, List.head?_cons])) (nonzero mask)
    ⟨nonzero_pairwise mask, fun i => mem_nonzero⟩]
  exact ha

/-- Masks for the data of the example of C153: entries have shape (2, 2, 3), so a mask for the first dimension needs two elements,
and one for the last dimension three. -/
example :
    (exRoiList.getArrayMask true (.ok ()) (.ok ()) (ch! "D:o") (ch! "data.y") ⟨[], [false, true], []⟩).map
      (fun a => (a.rowShape, a.coords, a.rows.map (fun r => (r [0, 0, 0], r [0, 1, 2])))) =
      .ok ([1, 2, 3], some [1, 1, 2], [(1100, 1112), (2100, 2112), (3100, 3112)]) ∧
    (exRoiList.getArrayMask true (.ok ()) (.ok ()) (ch! "D:o") (ch! "data.y") ⟨[], [false, true, true], []⟩).map (fun a => a.rowShape) =
      .error .index ∧
    (exRoiList.getArrayMask true (.ok ()) (.ok ()) (ch! "D:o") (ch! "data.y") ⟨[.ellipsis, .int 1], [true, false, true], []⟩).map
      (fun a => (a.rowShape, a.coords, a.rows.map (fun r => (r [0, 0], r [0, 1], r [1, 1])))) =
      .ok ([2, 2], some [1, 1, 2], [(1010, 1012, 1112), (2010, 2012, 2112), (3010, 3012, 3112)]) ∧
    MaskFits ⟨[.ellipsis, .int 1], [true, false, true], []⟩ [2, 2, 3] ∧ TruePlaces [true, false, true] [0, 2] :=
  ⟨by decide, by decide, by decide, Or.inr ⟨by decide, rfl⟩,
    ⟨nonzero_pairwise [true, false, true], fun i => mem_nonzero (l := [true, false, true])⟩⟩

end KD

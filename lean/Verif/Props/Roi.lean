/- Property C106: regions of interest. -/
import Verif.Spec.Roi
import Verif.Props.Arrays
import Verif.Props.StackViews

namespace KD
open Spec

variable {X : Type}

theorem expandIx_full (roi : List Ix) (n : Nat) : expandIx (Ix.full :: roi) (n + 1) = Ix.full :: expandIx roi n := by
  have hne : Ix.full ≠ Ix.ellipsis := by decide
  unfold expandIx
  by_cases h : Ix.ellipsis ∈ roi
  · rw [if_pos (List.mem_cons_of_mem _ h), if_pos h, List.idxOf_cons_ne _ hne]
    simp only [List.take_succ_cons, List.drop_succ_cons, List.length_cons, List.cons_append, Nat.succ_eq_add_one]
    rw [show n + 1 + 1 - (roi.length + 1) = n + 1 - roi.length by omega]
  · rw [if_neg (by simp [h, hne.symm]), if_neg h]
    simp only [List.length_cons, List.cons_append]
    rw [show n + 1 - (roi.length + 1) = n - roi.length by omega]

/-- Indexing with a full first dimension. -/
theorem index_full {Y : Type} (a : Arr Y) {m : Nat} {shape : List Nat} (hs : a.shape = m :: shape) (roi : List Ix) :
    a.index (Ix.full :: roi) =
      if roi.count .ellipsis > 1 ∨ (expandIx roi shape.length).length ≠ shape.length then .error .index
      else match pickDims (expandIx roi shape.length) shape with
        | .error e => .error e
        | .ok ps => .ok (a.pick (.many (List.range m) :: ps)) := by
  have hne : Ix.full ≠ Ix.ellipsis := by decide
  unfold Arr.index
  rw [hs, List.length_cons, expandIx_full, List.count_cons_of_ne hne, List.length_cons]
  simp only [ne_eq, Nat.add_right_cancel_iff]
  split
  · rfl
  · simp only [pickDims, pickDim_full]
    cases pickDims (expandIx roi shape.length) shape <;> rfl

theorem roiShape_eq (roi : List Ix) (shape : List Nat) :
    roiShape roi shape =
      if roi.count .ellipsis > 1 ∨ (expandIx roi shape.length).length ≠ shape.length then .error .index
      else match pickDims (expandIx roi shape.length) shape with
        | .error e => .error e
        | .ok ps => .ok (pickShape ps) := by
  unfold roiShape
  rw [index_full (Arr.full 0 (0 :: shape) ()) rfl roi]
  by_cases hc : roi.count .ellipsis > 1 ∨ (expandIx roi shape.length).length ≠ shape.length
  · rw [if_pos hc, if_pos hc]
  · rw [if_neg hc, if_neg hc]
    cases pickDims (expandIx roi shape.length) shape <;> rfl

theorem mem_expandIx {roi : List Ix} {n : Nat} {a b s : Option Int} (h : (a, b, s) ≠ (none, none, none)) :
    Ix.slice a b s ∈ expandIx roi n ↔ Ix.slice a b s ∈ roi := by
  have hne : Ix.slice a b s ≠ Ix.full := by
    intro he
    unfold Ix.full at he
    obtain ⟨rfl, rfl, rfl⟩ := Ix.slice.inj he
    exact h rfl
  have hrep : ∀ k, Ix.slice a b s ∉ List.replicate k Ix.full := fun k hk => hne (List.eq_of_mem_replicate hk)
  unfold expandIx
  split
  next he =>
    have hi : roi.idxOf .ellipsis < roi.length := List.idxOf_lt_length_iff.2 he
    have hroi : roi = roi.take (roi.idxOf .ellipsis) ++ .ellipsis :: roi.drop (roi.idxOf .ellipsis + 1) := by
      conv_lhs => rw [← List.take_append_drop (roi.idxOf .ellipsis) roi, List.drop_eq_getElem_cons hi]
      rw [List.getElem_idxOf hi]
    rw [List.mem_append, List.mem_append]
    conv_rhs => rw [hroi, List.mem_append, List.mem_cons]
    simp [hrep]
  next he =>
    rw [List.mem_append]
    simp [hrep]

theorem backwards_expandIx {roi : List Ix} {n : Nat} : Backwards (expandIx roi n) ↔ Backwards roi := by
  unfold Backwards
  constructor
  · rintro ⟨a, b, s, h, hs⟩
    exact ⟨a, b, s, (mem_expandIx (by simp)).1 h, hs⟩
  · rintro ⟨a, b, s, h, hs⟩
    exact ⟨a, b, s, (mem_expandIx (by simp)).2 h, hs⟩

theorem h5PickDim_forward {x : Ix} {n : Nat} {p : Pick} (h : pickDim x n = .ok p) (hb : ¬ Backwards [x]) :
    h5PickDim x n = .ok p := by
  cases x with
  | ellipsis => simp [pickDim] at h
  | int i =>
    unfold pickDim at h
    unfold h5PickDim
    simp only at h ⊢
    by_cases hc : 0 ≤ (if i < 0 then i + n else i) ∧ (if i < 0 then i + n else i) < n
    · rw [if_pos hc] at h ⊢; exact h
    · rw [if_neg hc] at h; simp at h
  | slice a b s =>
    unfold pickDim at h
    unfold h5PickDim
    simp only at h ⊢
    rw [← h]
    apply if_neg
    intro hlt
    have hs0 : s.getD 1 ≠ 0 := by
      intro h0
      unfold slicePositions at h
      simp [h0] at h
    cases s with
    | none => simp at hlt
    | some s =>
      simp only [Option.getD_some] at hlt hs0
      exact hb ⟨a, b, s, by simp, by omega⟩

theorem h5PickDim_backward {x : Ix} {n : Nat} (hb : Backwards [x]) : h5PickDim x n = .error .value := by
  obtain ⟨a, b, s, h, hs⟩ := hb
  rw [List.mem_singleton] at h
  subst h
  unfold h5PickDim
  simp only [Option.getD_some]
  exact if_pos (by omega)

theorem backwards_cons {x : Ix} {xs : List Ix} : Backwards (x :: xs) ↔ Backwards [x] ∨ Backwards xs := by
  unfold Backwards
  constructor
  · rintro ⟨a, b, s, h, hs⟩
    rcases List.mem_cons.1 h with h | h
    · exact Or.inl ⟨a, b, s, by simp [h], hs⟩
    · exact Or.inr ⟨a, b, s, h, hs⟩
  · rintro (⟨a, b, s, h, hs⟩ | ⟨a, b, s, h, hs⟩)
    · exact ⟨a, b, s, by rw [List.mem_singleton] at h; simp [h], hs⟩
    · exact ⟨a, b, s, List.mem_cons_of_mem _ h, hs⟩

theorem h5PickDims_eq : ∀ {xs : List Ix} {ns : List Nat} {ps : List Pick}, pickDims xs ns = .ok ps →
    (¬ Backwards xs → h5PickDims xs ns = .ok ps) ∧ (Backwards xs → h5PickDims xs ns = .error .value) := by
  intro xs
  induction xs with
  | nil =>
    intro ns ps h
    cases ns with
    | nil => exact ⟨fun _ => h, fun hb => by obtain ⟨_, _, _, hm, _⟩ := hb; simp at hm⟩
    | cons n ns => simp [pickDims] at h
  | cons x xs ih =>
    intro ns ps h
    cases ns with
    | nil => simp [pickDims] at h
    | cons n ns =>
      simp only [pickDims] at h
      split at h
      · simp at h
      next p hp =>
      split at h
      · simp at h
      next qs hqs =>
      obtain rfl := Except.ok.inj h
      obtain ⟨i1, i2⟩ := ih hqs
      rw [backwards_cons]
      simp only [h5PickDims]
      constructor
      · intro hb
        rw [not_or] at hb
        rw [h5PickDim_forward hp hb.1]
        simp only
        rw [i1 hb.2]
      · intro hb
        by_cases hx : Backwards [x]
        · rw [h5PickDim_backward hx]
        · rw [h5PickDim_forward hp hx]
          simp only
          rw [i2 (hb.resolve_left hx)]

theorem h5Fill_map {Y Z : Type} (F : Y → Z) (n : Nat) (l : List Y) :
    h5Fill n (l.map F) = match h5Fill n l with
      | .error e => .error e
      | .ok r => .ok (r.map F) := by
  unfold h5Fill
  rw [List.length_map]
  split
  · rfl
  · match l with
    | [] => rfl
    | [r] => simp
    | a :: b :: l => rfl

/-- The entry with the region taken. -/
def takeRegion (ps : List Pick) (row : List Nat → X) : List Nat → X := fun idx => row (pickIndex ps idx)

/-- The end of `getArray`, from the parts read. -/
def joinParts {Y : Type} (chunks : List (Chunk (List Nat → X))) (shape : List Nat) (dtype : Nat)
    (parts : List (Option (List Y × List Nat))) : LArr Y :=
  ⟨((parts.filterMap id).map Prod.fst).flatten,
    if (chunks.map (fun ch => ch.counts.sum)).sum = 0 then none else some ((parts.filterMap id).map Prod.snd).flatten, shape, dtype⟩

/-- What both ways of reading have in common. -/
theorem roi_parts (h5Empty : R Unit) (c : DC (List Nat → X)) (source key : Str) (roi : List Ix) :
    (∃ e, c.getArrayRoi h5Empty source key (.byIndex roi) = .error e ∧ c.getArray source key id = .error e) ∨
    ∃ chunks shape dtype, (∀ ch ∈ chunks, ∃ ds, ch.dataset = .ok ds ∧ ds.rowShape = shape) ∧
      (c.getArray source key id = match mapE (readChunk id) chunks with
        | .error e => .error e
        | .ok parts => .ok (joinParts chunks shape dtype parts)) ∧
      c.getArrayRoi h5Empty source key (.byIndex roi) = match roiShape roi shape with
        | .error e => .error e
        | .ok rshape => match mapE (readChunkRoi h5Empty roi) chunks with
          | .error e => .error e
          | .ok parts => .ok (joinParts chunks rshape dtype parts) := by
  unfold DC.getArray DC.getArrayRoi
  cases c.checkField source key with
  | error e => exact Or.inl ⟨e, rfl, rfl⟩
  | ok u =>
    simp only
    cases c.findDataChunks source key with
    | error e => exact Or.inl ⟨e, rfl, rfl⟩
    | ok cs =>
      simp only
      generalize sortBy Chunk.sortKey cs = chunks
      cases hd : mapE Chunk.dataset chunks with
      | error e => exact Or.inl ⟨e, rfl, rfl⟩
      | ok dss =>
        simp only
        split
        · exact Or.inl ⟨_, rfl, rfl⟩
        next h1 =>
        split
        · exact Or.inl ⟨_, rfl, rfl⟩
        cases hs : (dss.map Dataset.rowShape).dedup with
        | nil => exact Or.inl ⟨_, rfl, rfl⟩
        | cons shape ss =>
          cases ht : (dss.map Dataset.dtype).dedup with
          | nil => exact Or.inl ⟨_, rfl, rfl⟩
          | cons dtype ts =>
            refine Or.inr ⟨chunks, shape, dtype, ?_, ?_, ?_⟩
            rotate_left
            · cases mapE (readChunk id) chunks <;> rfl
            · simp only
              cases roiShape roi shape with
              | error e => rfl
              | ok rs => cases mapE (readChunkRoi h5Empty roi) chunks <;> rfl
            intro ch hch
            obtain ⟨ds, hm, hds⟩ := mapE_ok_all hd hch
            refine ⟨ds, hds, ?_⟩
            have hin : ds.rowShape ∈ (dss.map Dataset.rowShape).dedup := List.mem_dedup.2 (List.mem_map.2 ⟨ds, hm, rfl⟩)
            rw [hs] at hin h1
            have : ss = [] := by
              cases ss with
              | nil => rfl
              | cons _ _ => simp at h1
            rw [this] at hin
            simpa using hin

/-- The region taken of all entries of a part. -/
def partRegion (ps : List Pick) (r : Option (List (List Nat → X) × List Nat)) : Option (List (List Nat → X) × List Nat) :=
  r.map (fun x => (x.1.map (takeRegion ps), x.2))

theorem readChunkRoi_eq {h5Empty : R Unit} {roi : List Ix} {ch : Chunk (List Nat → X)} {ds : Dataset (List Nat → X)}
    {ps : List Pick} (hd : ch.dataset = .ok ds) (hp : pickDims (expandIx roi ds.rowShape.length) ds.rowShape = .ok ps) :
    (∀ r, readChunkRoi h5Empty roi ch = .ok r → ∃ r', readChunk id ch = .ok r' ∧ r = partRegion ps r') ∧
    (∀ r', readChunk id ch = .ok r' → (r' = none ∨ ¬ Backwards roi ∧ (0 ∉ pickShape ps ∨ h5Empty = .ok ())) →
      readChunkRoi h5Empty roi ch = .ok (partRegion ps r')) ∧
    (ch.counts.sum ≠ 0 → Backwards roi → readChunkRoi h5Empty roi ch = .error .value) := by
  obtain ⟨g1, g2⟩ := h5PickDims_eq hp
  rw [backwards_expandIx] at g1 g2
  unfold readChunkRoi readChunk
  simp only
  by_cases hn : ch.counts.sum = 0
  · rw [if_pos hn, if_pos hn]
    refine ⟨fun r hr => ⟨none, rfl, (Except.ok.inj hr).symm⟩, fun r' hr' _ => ?_, fun h => absurd hn h⟩
    obtain rfl := Except.ok.inj hr'
    rfl
  rw [if_neg hn, if_neg hn, hd]
  simp only
  rw [expandIx_full, List.drop_one, List.tail_cons]
  have hfill := h5Fill_map (takeRegion ps) ch.counts.sum (sl ds.rows ch.first (ch.first + ch.counts.sum))
  have hid : (sl ds.rows ch.first (ch.first + ch.counts.sum)).map id = sl ds.rows ch.first (ch.first + ch.counts.sum) :=
    List.map_id _
  rw [hid]
  by_cases hb : Backwards roi
  · rw [g2 hb]
    refine ⟨fun r hr => by simp at hr, fun r' hr' hor => ?_, fun _ _ => rfl⟩
    rcases hor with rfl | hor
    · exfalso
      split at hr' <;> simp at hr'
    · exact absurd hb hor.1
  · rw [g1 hb]
    simp only
    rw [show (fun (row : List Nat → X) idx => row (pickIndex ps idx)) = takeRegion ps from rfl, hfill]
    cases h5Fill ch.counts.sum (sl ds.rows ch.first (ch.first + ch.counts.sum)) with
    | error e => exact ⟨fun r hr => by simp at hr, fun r' hr' => by simp at hr', fun _ h => absurd h hb⟩
    | ok rows =>
      simp only
      refine ⟨fun r hr => ?_, fun r' hr' hor => ?_, fun _ h => absurd h hb⟩
      · split at hr
        · simp at hr
        · exact ⟨_, rfl, (Except.ok.inj hr).symm⟩
      · obtain rfl := Except.ok.inj hr'
        rcases hor with hor | ⟨-, hor⟩
        · simp at hor
        · have : (if 0 ∈ pickShape ps then h5Empty else .ok ()) = .ok () := by
            split
            next h0 => exact hor.resolve_left (not_not.2 h0)
            · rfl
          rw [this]
          rfl

theorem joinParts_region {chunks : List (Chunk (List Nat → X))} {shape rshape : List Nat} {dtype : Nat} {ps : List Pick}
    (parts : List (Option (List (List Nat → X) × List Nat))) :
    (joinParts chunks rshape dtype (parts.map (partRegion ps))).rows = (joinParts chunks shape dtype parts).rows.map (takeRegion ps) ∧
    (joinParts chunks rshape dtype (parts.map (partRegion ps))).coords = (joinParts chunks shape dtype parts).coords := by
  have h1 : (parts.map (partRegion ps)).filterMap id = (parts.filterMap id).map (fun x => (x.1.map (takeRegion ps), x.2)) := by
    induction parts with
    | nil => rfl
    | cons p parts ih =>
      cases p with
      | none => exact ih
      | some x => simp only [List.map_cons, partRegion, Option.map_some, List.filterMap_cons, id]; exact congrArg _ ih
  unfold joinParts
  simp only
  rw [h1]
  constructor
  · simp [List.map_flatten, Function.comp_def]
  · simp [Function.comp_def]

theorem wholeArr_index {w a : LArr (List Nat → X)} {ps : List Pick} (hd : a.dtype = w.dtype) (hs : a.rowShape = pickShape ps)
    (hr : a.rows = w.rows.map (takeRegion ps)) :
    SameArr (wholeArr a) ((wholeArr w).pick (.many (List.range w.rows.length) :: ps)) := by
  refine ⟨hd, ?_, ?_⟩
  · simp [wholeArr, Arr.pick, pickShape, hs, hr]
  · intro idx hidx
    cases idx with
    | nil => simp [wholeArr] at hidx
    | cons i rest =>
      have hi : i < w.rows.length := by
        have := (List.forall₂_cons.1 hidx).1
        simpa [hr] using this
      simp only [wholeArr, Arr.pick, pickIndex, hr, List.getElem?_map, List.getD_eq_getElem?_getD, List.getElem?_range hi,
        Option.getD_some, Option.map_map]
      rfl

/-- C106. `get_array` with a region of interest gives what numpy's indexing selects from the whole array, with the same train
IDs. -/
theorem get_array_roi_exact {h5Empty : R Unit} {c : DC (List Nat → X)} {source key : Str} {roi : List Ix}
    {a : LArr (List Nat → X)} (h : c.getArrayRoi h5Empty source key (.byIndex roi) = .ok a) :
    ∃ w b, c.getArray source key id = .ok w ∧ (wholeArr w).index (Ix.full :: roi) = .ok b ∧ SameArr (wholeArr a) b ∧
      a.coords = w.coords := by
  rcases roi_parts h5Empty c source key roi with ⟨e, h1, -⟩ | ⟨chunks, shape, dtype, hds, h1, h2⟩
  · rw [h1] at h; simp at h
  rw [h2, roiShape_eq] at h
  by_cases hc : roi.count .ellipsis > 1 ∨ (expandIx roi shape.length).length ≠ shape.length
  · rw [if_pos hc] at h; simp at h
  rw [if_neg hc] at h
  cases hp : pickDims (expandIx roi shape.length) shape with
  | error e => rw [hp] at h; simp at h
  | ok ps =>
    rw [hp] at h
    simp only at h
    cases hm : mapE (readChunkRoi h5Empty roi) chunks with
    | error e => rw [hm] at h; simp at h
    | ok parts =>
      rw [hm] at h
      obtain rfl := Except.ok.inj h
      have hparts : ∃ parts', mapE (readChunk id) chunks = .ok parts' ∧ parts = parts'.map (partRegion ps) := by
        clear * - hds hp hm
        induction chunks generalizing parts with
        | nil => obtain rfl := Except.ok.inj hm; exact ⟨[], rfl, rfl⟩
        | cons ch chunks ih =>
          obtain ⟨r, rs, g1, g2, rfl⟩ := mapE_cons_ok.1 hm
          obtain ⟨rs', g3, rfl⟩ := ih (fun x hx => hds x (by simp [hx])) rs g2
          obtain ⟨ds, d1, rfl⟩ := hds ch (by simp)
          obtain ⟨r', g4, rfl⟩ := (readChunkRoi_eq d1 hp).1 r g1
          exact ⟨r' :: rs', mapE_cons_ok.2 ⟨_, _, g4, g3, rfl⟩, rfl⟩
      obtain ⟨parts', hm', rfl⟩ := hparts
      rw [hm'] at h1
      obtain ⟨j1, j2⟩ := joinParts_region (chunks := chunks) (shape := shape) (rshape := pickShape ps) (dtype := dtype)
        (ps := ps) parts'
      refine ⟨_, _, h1, ?_, wholeArr_index (w := joinParts chunks shape dtype parts') rfl rfl j1, j2⟩
      rw [index_full (wholeArr (joinParts chunks shape dtype parts')) rfl roi]
      have hs : (joinParts chunks shape dtype parts').rowShape = shape := rfl
      rw [hs, if_neg hc, hp]

theorem h5Fill_length {Y : Type} {n : Nat} {l r : List Y} (h : h5Fill n l = .ok r) : r.length = n := by
  unfold h5Fill at h
  split at h
  next hl => obtain rfl := Except.ok.inj h; exact hl
  · split at h
    · obtain rfl := Except.ok.inj h; simp
    · simp at h

theorem readChunk_some {ch : Chunk (List Nat → X)} {x : List (List Nat → X) × List Nat} (h : readChunk id ch = .ok (some x)) :
    ch.counts.sum ≠ 0 ∧ x.1 ≠ [] := by
  unfold readChunk at h
  simp only at h
  split at h
  · simp at h
  next hn =>
  split at h
  · simp at h
  split at h
  · simp at h
  next rows hr =>
  obtain rfl := Option.some.inj (Except.ok.inj h)
  refine ⟨hn, fun h0 => ?_⟩
  simp only at h0
  have := h5Fill_length hr
  rw [h0] at this
  exact hn this.symm

/-- C106. The region is accepted if numpy's indexing accepts it, no slice goes backwards, and it is not empty (if the
version of h5py does not allow that). Without data it is enough that numpy accepts it. -/
theorem get_array_roi_succeeds {h5Empty : R Unit} {c : DC (List Nat → X)} {source key : Str} {roi : List Ix}
    {w : LArr (List Nat → X)} {b : Arr (Option X)} (hw : c.getArray source key id = .ok w)
    (hb : (wholeArr w).index (Ix.full :: roi) = .ok b)
    (hf : w.rows = [] ∨ ¬ Backwards roi ∧ (0 ∉ b.shape.drop 1 ∨ h5Empty = .ok ())) :
    ∃ a, c.getArrayRoi h5Empty source key (.byIndex roi) = .ok a := by
  rcases roi_parts h5Empty c source key roi with ⟨e, -, h1⟩ | ⟨chunks, shape, dtype, hds, h1, h2⟩
  · rw [h1] at hw; simp at hw
  rw [h1] at hw
  cases hm : mapE (readChunk id) chunks with
  | error e => rw [hm] at hw; simp at hw
  | ok parts =>
    rw [hm] at hw
    obtain rfl := Except.ok.inj hw
    rw [index_full (wholeArr (joinParts chunks shape dtype parts)) rfl roi] at hb
    have hs : (joinParts chunks shape dtype parts).rowShape = shape := rfl
    rw [hs] at hb
    rw [h2, roiShape_eq]
    by_cases hc : roi.count .ellipsis > 1 ∨ (expandIx roi shape.length).length ≠ shape.length
    · rw [if_pos hc] at hb; simp at hb
    rw [if_neg hc] at hb ⊢
    cases hp : pickDims (expandIx roi shape.length) shape with
    | error e => rw [hp] at hb; simp at hb
    | ok ps =>
      rw [hp] at hb
      obtain rfl := Except.ok.inj hb
      simp only
      have hall : ∀ ch ∈ chunks, ∃ r, readChunkRoi h5Empty roi ch = .ok r := by
        intro ch hch
        obtain ⟨r', hr1, hr2⟩ := mapE_ok_all hm hch
        obtain ⟨ds, d1, d2⟩ := hds ch hch
        subst d2
        refine ⟨_, (readChunkRoi_eq d1 hp).2.1 r' hr2 ?_⟩
        rcases hf with hf | hf
        · left
          cases r' with
          | none => rfl
          | some x =>
            exfalso
            apply (readChunk_some hr2).2
            have : (joinParts chunks ds.rowShape dtype parts).rows = ((parts.filterMap id).map Prod.fst).flatten := rfl
            rw [this, List.flatten_eq_nil_iff] at hf
            exact hf x.1 (List.mem_map.2 ⟨x, List.mem_filterMap.2 ⟨some x, hr1, rfl⟩, rfl⟩)
        · exact Or.inr hf
      obtain ⟨rs, hrs⟩ := mapE_exists_ok hall
      rw [hrs]
      exact ⟨_, rfl⟩

/-- C106. A region which numpy does not accept is refused with numpy's exception. A slice which goes backwards, which numpy
accepts, is refused with ValueError if there is data. Anything but `by_index[...]` is refused with TypeError. -/
theorem get_array_roi_refuses {h5Empty : R Unit} {c : DC (List Nat → X)} {source key : Str} {w : LArr (List Nat → X)}
    (hw : c.getArray source key id = .ok w) :
    (∀ roi e, (wholeArr w).index (Ix.full :: roi) = .error e →
      c.getArrayRoi h5Empty source key (.byIndex roi) = .error e) ∧
    (∀ roi b, (wholeArr w).index (Ix.full :: roi) = .ok b → Backwards roi → w.rows ≠ [] →
      c.getArrayRoi h5Empty source key (.byIndex roi) = .error .value) ∧
    c.getArrayRoi h5Empty source key .other = .error .type := by
  refine ⟨fun roi e he => ?_, fun roi b hb hback hne => ?_, ?_⟩
  · rcases roi_parts h5Empty c source key roi with ⟨e', -, h1⟩ | ⟨chunks, shape, dtype, hds, h1, h2⟩
    · rw [h1] at hw; simp at hw
    rw [h1] at hw
    cases hm : mapE (readChunk id) chunks with
    | error e => rw [hm] at hw; simp at hw
    | ok parts =>
      rw [hm] at hw
      obtain rfl := Except.ok.inj hw
      rw [index_full (wholeArr (joinParts chunks shape dtype parts)) rfl roi] at he
      have hs : (joinParts chunks shape dtype parts).rowShape = shape := rfl
      rw [hs] at he
      rw [h2, roiShape_eq]
      by_cases hc : roi.count .ellipsis > 1 ∨ (expandIx roi shape.length).length ≠ shape.length
      · rw [if_pos hc] at he ⊢
        rw [← Except.error.inj he]
      rw [if_neg hc] at he ⊢
      cases hp : pickDims (expandIx roi shape.length) shape with
      | error e' => rw [hp] at he; rw [← Except.error.inj he]
      | ok ps => rw [hp] at he; simp at he
  · rcases roi_parts h5Empty c source key roi with ⟨e', -, h1⟩ | ⟨chunks, shape, dtype, hds, h1, h2⟩
    · rw [h1] at hw; simp at hw
    rw [h1] at hw
    cases hm : mapE (readChunk id) chunks with
    | error e => rw [hm] at hw; simp at hw
    | ok parts =>
      rw [hm] at hw
      obtain rfl := Except.ok.inj hw
      rw [index_full (wholeArr (joinParts chunks shape dtype parts)) rfl roi] at hb
      have hs : (joinParts chunks shape dtype parts).rowShape = shape := rfl
      rw [hs] at hb
      rw [h2, roiShape_eq]
      by_cases hc : roi.count .ellipsis > 1 ∨ (expandIx roi shape.length).length ≠ shape.length
      · rw [if_pos hc] at hb; simp at hb
      rw [if_neg hc] at hb ⊢
      cases hp : pickDims (expandIx roi shape.length) shape with
      | error e => rw [hp] at hb; simp at hb
      | ok ps =>
        simp only
        have hex : ∃ ch ∈ chunks, ch.counts.sum ≠ 0 := by
          by_contra hno
          push Not at hno
          apply hne
          have : (joinParts chunks shape dtype parts).rows = ((parts.filterMap id).map Prod.fst).flatten := rfl
          rw [this, List.flatten_eq_nil_iff]
          intro l hl
          obtain ⟨x, hx, rfl⟩ := List.mem_map.1 hl
          obtain ⟨r, hr, hrx⟩ := List.mem_filterMap.1 hx
          obtain ⟨ch, hch, hrd⟩ := (mapE_mem hm).1 hr
          simp only [id] at hrx
          subst hrx
          exact absurd (hno ch hch) (readChunk_some hrd).1
        cases hr : mapE (readChunkRoi h5Empty roi) chunks with
        | ok rs =>
          obtain ⟨ch, hch, hn⟩ := hex
          obtain ⟨r, -, h3⟩ := mapE_ok_all hr hch
          obtain ⟨ds, d1, rfl⟩ := hds ch hch
          rw [(readChunkRoi_eq d1 hp).2.2 hn hback] at h3
          simp at h3
        | error e =>
          obtain ⟨ch, hch, h3⟩ := mapE_error_mem hr
          obtain ⟨ds, d1, rfl⟩ := hds ch hch
          by_cases hn : ch.counts.sum = 0
          · unfold readChunkRoi at h3
            simp only at h3
            rw [if_pos hn] at h3
            simp at h3
          · rw [(readChunkRoi_eq d1 hp).2.2 hn hback] at h3
            rw [← Except.error.inj h3]
  · unfold DC.getArrayRoi
    rw [(getArray_ok hw).1]

/-- A file with entries of shape (2, 3); the element at index (i, j) of entry n is 100 n + 10 i + j. -/
def exRoi : DC (List Nat → Nat) where
  files := [⟨ch! "a", [1, 2], [], [ch! "D:o"],
    { trainId := some [1, 2], version := some (ch! "1.0"), sources05 := none,
      sources10 := some [ch! "INSTRUMENT/D:o/data"],
      index := [([ch! "INDEX", ch! "D:o", ch! "data"], ⟨some [0, 2], some [2, 1], none, none⟩)],
      groups := [], datasets := [([ch! "INSTRUMENT", ch! "D:o", ch! "data", ch! "y"],
        ⟨[fun idx => 100 + 10 * idx.getD 0 0 + idx.getD 1 0, fun idx => 200 + 10 * idx.getD 0 0 + idx.getD 1 0,
          fun idx => 300 + 10 * idx.getD 0 0 + idx.getD 1 0], [2, 3], 0⟩)] }⟩]
  selection := [(ch! "D:o", none)]
  trainIds := [1, 2]
  ctxCloses := true

/-- `roi=by_index[1, ::2]`, `by_index[..., -1]`, `by_index[5]`, `by_index[:, ::-1]` and `by_index[1:1]`. -/
example :
    (exRoi.getArrayRoi (.error .zeroDivision) (ch! "D:o") (ch! "data.y") (.byIndex [.int 1, .slice none none (some 2)])).map
      (fun a => (a.rowShape, a.coords, a.rows.map (fun r => (r [0], r [1])))) =
      .ok ([2], some [1, 1, 2], [(110, 112), (210, 212), (310, 312)]) ∧
    (exRoi.getArrayRoi (.error .zeroDivision) (ch! "D:o") (ch! "data.y") (.byIndex [.ellipsis, .int (-1)])).map
      (fun a => (a.rowShape, a.coords, a.rows.map (fun r => (r [0], r [1])))) =
      .ok ([2], some [1, 1, 2], [(102, 112), (202, 212), (302, 312)]) ∧
    (exRoi.getArrayRoi (.error .zeroDivision) (ch! "D:o") (ch! "data.y") (.byIndex [.int 5])).map (fun a => a.rowShape) =
      .error .index ∧
    (exRoi.getArrayRoi (.error .zeroDivision) (ch! "D:o") (ch! "data.y") (.byIndex [.full, .slice none none (some (-1))])).map
      (fun a => a.rowShape) = .error .value ∧
    (exRoi.getArrayRoi (.error .zeroDivision) (ch! "D:o") (ch! "data.y") (.byIndex [.slice (some 1) (some 1) none])).map
      (fun a => a.rowShape) = .error .zeroDivision ∧
    (exRoi.getArrayRoi (.ok ()) (ch! "D:o") (ch! "data.y") (.byIndex [.slice (some 1) (some 1) none])).map
      (fun a => a.rowShape) = .ok [0, 3] :=
  ⟨by decide, by decide, by decide, by decide, by decide, by decide⟩

end KD

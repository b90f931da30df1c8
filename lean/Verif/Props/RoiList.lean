/- Property C153: regions of interest with a list of indices. -/
import Verif.Spec.RoiList
import Verif.Props.Roi
import Mathlib.Data.List.TakeWhile

namespace KD
open Spec

variable {X : Type}

theorem under_plain (r : ListRoi) : r.under.plain = Ix.full :: r.plain := rfl

theorem full_ne_ellipsis : Ix.full ≠ Ix.ellipsis := by decide

theorem under_split (r : ListRoi) : r.under.split = r.split := by
  unfold ListRoi.split ListRoi.under
  simp only [List.reverse_cons]
  congr 1
  rw [List.dropWhile_append]
  by_cases h : (r.pre.reverse.dropWhile Ix.isInt).isEmpty
  · rw [if_pos h]
    rw [List.isEmpty_iff] at h
    rw [h]
    rfl
  · rw [if_neg h, List.any_append]
    simp [Ix.full, Ix.isInt]

/-- The dimension of the list is one of the dimensions of the array. -/
theorem axis_lt {r : ListRoi} {n : Nat} (h2 : (expandIx r.plain n).length = n) :
    r.axis n < n ∧ (.ellipsis ∈ r.pre → r.post.length + 1 ≤ n) := by
  unfold ListRoi.axis
  have hlen : r.plain.length = r.pre.length + (r.post.length + 1) := by simp [ListRoi.plain]
  unfold expandIx at h2
  by_cases hm : Ix.ellipsis ∈ r.plain
  · rw [if_pos hm] at h2
    have hi := List.idxOf_lt_length_of_mem hm
    simp only [List.length_append, List.length_take, List.length_replicate, List.length_drop] at h2
    by_cases hp : Ix.ellipsis ∈ r.pre
    · have : 0 < r.pre.length := List.length_pos_of_mem hp
      rw [if_pos hp]
      exact ⟨by omega, fun _ => by omega⟩
    · rw [if_neg hp]
      have : 0 < r.post.length := by
        rcases List.mem_append.1 hm with h | h
        · exact absurd h hp
        · rcases List.mem_cons.1 h with h | h
          · exact absurd h.symm full_ne_ellipsis
          · exact List.length_pos_of_mem h
      exact ⟨by omega, fun h => absurd h hp⟩
  · rw [if_neg hm] at h2
    have hp : Ix.ellipsis ∉ r.pre := fun h => hm (List.mem_append_left _ h)
    simp only [List.length_append, List.length_replicate] at h2
    rw [if_neg hp]
    exact ⟨by omega, fun h => absurd h hp⟩

theorem axis_under {r : ListRoi} {n : Nat} (h2 : (expandIx r.plain n).length = n) :
    r.under.axis (n + 1) = r.axis n + 1 := by
  have h := (axis_lt h2).2
  unfold ListRoi.axis ListRoi.under
  simp only
  by_cases hp : Ix.ellipsis ∈ r.pre
  · rw [if_pos (List.mem_cons_of_mem _ hp), if_pos hp]
    have := h hp
    omega
  · rw [if_neg (by simp [hp, full_ne_ellipsis.symm]), if_neg hp]
    rfl

/-- Indexing with a full first dimension. -/
theorem indexList_full {Y : Type} (checks : Bool) (a : Arr Y) {m : Nat} {shape : List Nat} (hs : a.shape = m :: shape) (r : ListRoi) :
    a.indexList checks r.under =
      if r.plain.count .ellipsis > 1 ∨ (expandIx r.plain shape.length).length ≠ shape.length then .error .index
      else match pickDims (expandIx r.plain shape.length) shape with
        | .error e => .error e
        | .ok ps =>
          if (∀ i ∈ r.list, i < shape.getD (r.axis shape.length) 0) ∨
              checks = false ∧ 0 ∈ m :: pickShape (ps.set (r.axis shape.length) (.many r.list)) then
            .ok (if r.split then (a.pick (.many (List.range m) :: ps.set (r.axis shape.length) (.many r.list))).moveToFront
                (dimsBefore ps (r.axis shape.length) + 1)
              else a.pick (.many (List.range m) :: ps.set (r.axis shape.length) (.many r.list)))
          else .error .index := by
  unfold Arr.indexList
  rw [hs, List.length_cons, under_plain, expandIx_full, List.count_cons_of_ne full_ne_ellipsis, List.length_cons]
  simp only [ne_eq, Nat.add_right_cancel_iff]
  by_cases hc : r.plain.count .ellipsis > 1 ∨ ¬ (expandIx r.plain shape.length).length = shape.length
  · rw [if_pos hc, if_pos hc]
  rw [if_neg hc, if_neg hc]
  push Not at hc
  simp only [pickDims, pickDim_full]
  cases hp : pickDims (expandIx r.plain shape.length) shape with
  | error e => rfl
  | ok ps =>
    simp only
    rw [axis_under hc.2, under_split]
    simp only [ListRoi.under, List.getD_cons_succ, List.set_cons_succ, Arr.pick, pickShape, List.length_range, dimsBefore,
      List.take_succ_cons, List.length_cons]

theorem dimsBefore_lt {ps : List Pick} {k : Nat} {l : List Nat} (hk : k < ps.length) :
    dimsBefore ps k < (pickShape (ps.set k (.many l))).length := by
  unfold dimsBefore
  induction ps generalizing k with
  | nil => simp at hk
  | cons p ps ih =>
    cases k with
    | zero => simp [pickShape]
    | succ k =>
      have := ih (k := k) (by simpa using hk)
      cases p <;> simp [pickShape, this]

/-- The shape of an entry of the result. -/
theorem listRoiShape_eq (checks : Bool) (r : ListRoi) (shape : List Nat) :
    listRoiShape checks r shape =
      if r.plain.count .ellipsis > 1 ∨ (expandIx r.plain shape.length).length ≠ shape.length then .error .index
      else match pickDims (expandIx r.plain shape.length) shape with
        | .error e => .error e
        | .ok ps =>
          if (∀ i ∈ r.list, i < shape.getD (r.axis shape.length) 0) ∨ checks = false then
            .ok (if r.split then 0 :: (pickShape (ps.set (r.axis shape.length) (.many r.list))).eraseIdx (dimsBefore ps (r.axis shape.length))
              else pickShape (ps.set (r.axis shape.length) (.many r.list)))
          else .error .index := by
  unfold listRoiShape
  rw [indexList_full checks (Arr.full 0 (0 :: shape) ()) rfl r]
  by_cases hc : r.plain.count .ellipsis > 1 ∨ (expandIx r.plain shape.length).length ≠ shape.length
  · rw [if_pos hc, if_pos hc]
  rw [if_neg hc, if_neg hc]
  cases pickDims (expandIx r.plain shape.length) shape with
  | error e => rfl
  | ok ps =>
    simp only [List.mem_cons, true_or, and_true]
    by_cases hin : (∀ i ∈ r.list, i < shape.getD (r.axis shape.length) 0) ∨ checks = false
    · rw [if_pos hin, if_pos hin]
      cases r.split <;> simp [Arr.moveToFront, Arr.pick, pickShape]
    · rw [if_neg hin, if_neg hin]

/-- What both ways of reading have in common. -/
theorem list_parts (checks : Bool) (h5Empty h5Odd : R Unit) (c : DC (List Nat → X)) (source key : Str) (r : ListRoi) :
    (∃ e, c.getArrayList checks h5Empty h5Odd source key r = .error e ∧ c.getArray source key id = .error e) ∨
    ∃ chunks shape dtype, (∀ ch ∈ chunks, ∃ ds, ch.dataset = .ok ds ∧ ds.rowShape = shape) ∧
      (c.getArray source key id = match mapE (readChunk id) chunks with
        | .error e => .error e
        | .ok parts => .ok (joinParts chunks shape dtype parts)) ∧
      c.getArrayList checks h5Empty h5Odd source key r = match listRoiShape checks r shape with
        | .error e => .error e
        | .ok rshape => match mapE (readChunkList h5Empty h5Odd r) chunks with
          | .error e => .error e
          | .ok parts => .ok (joinParts chunks rshape dtype parts) := by
  unfold DC.getArray DC.getArrayList
  cases c.checkField source key with
  | error e => exact Or.inl ⟨e, rfl, rfl⟩
  | ok u =>
    simp only
    cases c.findDataChunks source key with
    | error e => exact Or.inl ⟨e, rfl, rfl⟩
    | ok cs =>
      simp only
      generalize sortBy Chunk.sortKey cs = chunks
      cases hd : mapE Chunk.dataset chunks with
      | error e => exact Or.inl ⟨e, rfl, rfl⟩
      | ok dss =>
        simp only
        split
        · exact Or.inl ⟨_, rfl, rfl⟩
        next h1 =>
        split
        · exact Or.inl ⟨_, rfl, rfl⟩
        cases hs : (dss.map Dataset.rowShape).dedup with
        | nil => exact Or.inl ⟨_, rfl, rfl⟩
        | cons shape ss =>
          cases ht : (dss.map Dataset.dtype).dedup with
          | nil => exact Or.inl ⟨_, rfl, rfl⟩
          | cons dtype ts =>
            refine Or.inr ⟨chunks, shape, dtype, ?_, ?_, ?_⟩
            rotate_left
            · cases mapE (readChunk id) chunks <;> rfl
            · simp only
              cases listRoiShape checks r shape with
              | error e => rfl
              | ok rs => cases mapE (readChunkList h5Empty h5Odd r) chunks <;> rfl
            intro ch hch
            obtain ⟨ds, hm, hds⟩ := mapE_ok_all hd hch
            refine ⟨ds, hds, ?_⟩
            have hin : ds.rowShape ∈ (dss.map Dataset.rowShape).dedup := List.mem_dedup.2 (List.mem_map.2 ⟨ds, hm, rfl⟩)
            rw [hs] at hin h1
            have : ss = [] := by
              cases ss with
              | nil => rfl
              | cons _ _ => simp at h1
            rw [this] at hin
            simpa using hin

theorem backwards_plain {r : ListRoi} : Backwards r.plain ↔ Backwards r.pre ∨ Backwards r.post := by
  unfold Backwards ListRoi.plain
  constructor
  · rintro ⟨a, b, s, h, hs⟩
    rcases List.mem_append.1 h with h | h
    · exact Or.inl ⟨a, b, s, h, hs⟩
    · rcases List.mem_cons.1 h with h | h
      · simp [Ix.full] at h
      · exact Or.inr ⟨a, b, s, h, hs⟩
  · rintro (⟨a, b, s, h, hs⟩ | ⟨a, b, s, h, hs⟩)
    · exact ⟨a, b, s, by simp [h], hs⟩
    · exact ⟨a, b, s, by simp [h], hs⟩

/-- Reading one chunk. -/
theorem readChunkList_eq {h5Empty h5Odd : R Unit} {r : ListRoi} {ch : Chunk (List Nat → X)} {ds : Dataset (List Nat → X)}
    {ps ps' : List Pick} (hd : ch.dataset = .ok ds) (hp : pickDims (expandIx r.plain ds.rowShape.length) ds.rowShape = .ok ps)
    (hps : ps' = ps.set (r.axis ds.rowShape.length) (.many r.list)) :
    (∀ x, readChunkList h5Empty h5Odd r ch = .ok x → (∃ x', readChunk id ch = .ok x' ∧ x = partRegion ps' x') ∧
      (x = none ∨ r.list.Pairwise (· < ·) ∧ ¬ Backwards r.plain ∧ (∀ i ∈ r.list, i < ds.rowShape.getD (r.axis ds.rowShape.length) 0))) ∧
    (∀ x', readChunk id ch = .ok x' → (x' = none ∨ r.list.Pairwise (· < ·) ∧ ¬ Backwards r.plain ∧
        (∀ i ∈ r.list, i < ds.rowShape.getD (r.axis ds.rowShape.length) 0) ∧ r.split = false ∧ (0 ∉ pickShape ps' ∨ h5Empty = .ok ())) →
      readChunkList h5Empty h5Odd r ch = .ok (partRegion ps' x')) ∧
    (ch.counts.sum ≠ 0 → ¬ r.list.Pairwise (· < ·) → readChunkList h5Empty h5Odd r ch = .error .type) ∧
    (ch.counts.sum ≠ 0 → r.list.Pairwise (· < ·) →
      (Backwards r.plain ∨ ∃ i ∈ r.list, ds.rowShape.getD (r.axis ds.rowShape.length) 0 ≤ i) →
      readChunkList h5Empty h5Odd r ch = .error .value) ∧
    (ch.counts.sum = 0 → readChunkList h5Empty h5Odd r ch = .ok none) := by
  obtain ⟨g1, g2⟩ := h5PickDims_eq hp
  rw [backwards_expandIx] at g1 g2
  unfold readChunkList readChunk
  simp only
  by_cases hn : ch.counts.sum = 0
  · rw [if_pos hn, if_pos hn]
    refine ⟨fun x hx => ⟨⟨none, rfl, (Except.ok.inj hx).symm⟩, Or.inl (Except.ok.inj hx).symm⟩, fun x' hx' _ => ?_,
      fun h => absurd hn h, fun h => absurd hn h, fun _ => rfl⟩
    obtain rfl := Except.ok.inj hx'
    rfl
  rw [if_neg hn, if_neg hn, hd]
  simp only
  have hfill := h5Fill_map (takeRegion ps') ch.counts.sum (sl ds.rows ch.first (ch.first + ch.counts.sum))
  have hid : (sl ds.rows ch.first (ch.first + ch.counts.sum)).map id = sl ds.rows ch.first (ch.first + ch.counts.sum) :=
    List.map_id _
  rw [hid]
  unfold h5ListPicks
  rw [under_plain, expandIx_full, List.drop_one, List.tail_cons]
  by_cases hl : r.list.Pairwise (· < ·)
  swap
  · rw [if_neg hl]
    refine ⟨fun x hx => by simp at hx, fun x' hx' hor => ?_, fun _ _ => rfl, fun _ h => absurd h hl, fun h => absurd h hn⟩
    rcases hor with h | h
    · exfalso
      subst h
      split at hx' <;> simp at hx'
    · exact absurd h.1 hl
  rw [if_pos hl]
  by_cases hb : Backwards r.plain
  · rw [g2 hb]
    refine ⟨fun x hx => by simp at hx, fun x' hx' hor => ?_, fun _ h => absurd hl h, fun _ _ _ => rfl, fun h => absurd h hn⟩
    rcases hor with h | h
    · exfalso
      subst h
      split at hx' <;> simp at hx'
    · exact absurd hb h.2.1
  rw [g1 hb]
  simp only
  by_cases hin : ∀ i ∈ r.list, i < ds.rowShape.getD (r.axis ds.rowShape.length) 0
  swap
  · rw [if_neg hin]
    refine ⟨fun x hx => by simp at hx, fun x' hx' hor => ?_, fun _ h => absurd hl h, fun _ _ _ => rfl, fun h => absurd h hn⟩
    rcases hor with h | h
    · exfalso
      subst h
      split at hx' <;> simp at hx'
    · exact absurd h.2.2.1 hin
  rw [if_pos hin, ← hps]
  simp only
  rw [show (fun (row : List Nat → X) idx => row (pickIndex ps' idx)) = takeRegion ps' from rfl, hfill]
  have hno : ¬ (Backwards r.plain ∨ ∃ i ∈ r.list, ds.rowShape.getD (r.axis ds.rowShape.length) 0 ≤ i) := by
    rintro (h | ⟨i, h1, h2⟩)
    · exact hb h
    · exact absurd (hin i h1) (by omega)
  cases h5Fill ch.counts.sum (sl ds.rows ch.first (ch.first + ch.counts.sum)) with
  | error e =>
    exact ⟨fun x hx => by simp at hx, fun x' hx' => by simp at hx', fun _ h => absurd hl h, fun _ _ h => absurd h hno, fun h => absurd h hn⟩
  | ok rows =>
    simp only
    refine ⟨fun x hx => ?_, fun x' hx' hor => ?_, fun _ h => absurd hl h, fun _ _ h => absurd h hno, fun h => absurd h hn⟩
    · split at hx
      · simp at hx
      · exact ⟨⟨_, rfl, (Except.ok.inj hx).symm⟩, Or.inr ⟨hl, hb, hin⟩⟩
    · obtain rfl := Except.ok.inj hx'
      rcases hor with hor | ⟨-, -, -, hs, hor⟩
      · simp at hor
      · have : (if r.split = true then h5Odd else if 0 ∈ pickShape ps' then h5Empty else .ok ()) = .ok () := by
          rw [if_neg (by simp [hs])]
          split
          next h0 => exact hor.resolve_left (not_not.2 h0)
          · rfl
        rw [this]
        rfl

theorem increasing_iff {l : List Nat} : Increasing l ↔ l.Pairwise (· < ·) := by
  rw [List.pairwise_iff_getElem]
  unfold Increasing
  constructor
  · intro h i j hi hj hij
    exact h i j _ _ hij (List.getElem?_eq_getElem hi) (List.getElem?_eq_getElem hj)
  · intro h i j a b hij ha hb
    obtain ⟨hi, rfl⟩ := List.getElem?_eq_some_iff.1 ha
    obtain ⟨hj, rfl⟩ := List.getElem?_eq_some_iff.1 hb
    exact h i j hi hj hij

theorem isInt_iff {x : Ix} : x.isInt = true ↔ ∃ i, x = .int i := by
  cases x <;> simp [Ix.isInt]

theorem all_ints : ∀ {l : List Ix}, (∀ x ∈ l, x.isInt = true) → ∃ is : List Int, l = is.map Ix.int := by
  intro l
  induction l with
  | nil => exact fun _ => ⟨[], rfl⟩
  | cons x l ih =>
    intro h
    obtain ⟨i, rfl⟩ := isInt_iff.1 (h x (by simp))
    obtain ⟨is, rfl⟩ := ih (fun y hy => h y (by simp [hy]))
    exact ⟨i :: is, rfl⟩

theorem dropWhile_ints_iff {l : List Ix} :
    (l.dropWhile Ix.isInt).any Ix.isInt = false ↔ ∃ (is : List Int) (rest : List Ix), l = is.map Ix.int ++ rest ∧ ∀ i, Ix.int i ∉ rest := by
  constructor
  · intro h
    obtain ⟨is, his⟩ := all_ints (l := l.takeWhile Ix.isInt) (fun x hx => List.mem_takeWhile_imp hx)
    refine ⟨is, l.dropWhile Ix.isInt, ?_, fun i hi => ?_⟩
    · rw [← his, List.takeWhile_append_dropWhile]
    · rw [List.any_eq_false] at h
      exact h _ hi rfl
  · rintro ⟨is, rest, rfl, hno⟩
    rw [List.any_eq_false]
    intro x hx hxi
    obtain ⟨i, rfl⟩ := isInt_iff.1 hxi
    rw [List.dropWhile_append_of_pos (by simp [Ix.isInt])] at hx
    exact hno i ((List.dropWhile_sublist _).subset hx)

theorem split_iff {r : ListRoi} : r.split = false ↔ Adjacent r := by
  unfold ListRoi.split Adjacent
  rw [Bool.or_eq_false_iff, dropWhile_ints_iff, dropWhile_ints_iff]
  constructor
  · rintro ⟨⟨is, rest, h1, h2⟩, ⟨is', rest', h3, h4⟩⟩
    refine ⟨rest.reverse, is.reverse, is', rest', ?_, h3, fun i => ⟨by simpa using h2 i, h4 i⟩⟩
    rw [← List.reverse_reverse r.pre, h1]
    simp
  · rintro ⟨before, left, right, after, h1, h2, h3⟩
    refine ⟨⟨left.reverse, before.reverse, ?_, fun i => by simpa using (h3 i).1⟩, ⟨right, after, h2, fun i => (h3 i).2⟩⟩
    rw [h1]
    simp

/-- Some chunk has data if the result has entries. -/
theorem chunk_with_data {chunks : List (Chunk (List Nat → X))} {shape : List Nat} {dtype : Nat}
    {parts : List (Option (List (List Nat → X) × List Nat))} (hm : mapE (readChunk id) chunks = .ok parts)
    (hne : (joinParts chunks shape dtype parts).rows ≠ []) : ∃ ch ∈ chunks, ch.counts.sum ≠ 0 := by
  by_contra hno
  push Not at hno
  apply hne
  have : (joinParts chunks shape dtype parts).rows = ((parts.filterMap id).map Prod.fst).flatten := rfl
  rw [this, List.flatten_eq_nil_iff]
  intro l hl
  obtain ⟨x, hx, rfl⟩ := List.mem_map.1 hl
  obtain ⟨r, hr, hrx⟩ := List.mem_filterMap.1 hx
  obtain ⟨ch, hch, hrd⟩ := (mapE_mem hm).1 hr
  simp only [id] at hrx
  subst hrx
  exact absurd (hno ch hch) (readChunk_some hrd).1

/-- C153. If all integers of the region stand next to the list, `get_array` gives what numpy's indexing selects from the whole
array, with the same train IDs. -/
theorem get_array_list_exact_partial {checks : Bool} {h5Empty h5Odd : R Unit} {c : DC (List Nat → X)} {source key : Str} {r : ListRoi}
    {a : LArr (List Nat → X)} (hadj : Adjacent r) (h : c.getArrayList checks h5Empty h5Odd source key r = .ok a) :
    ∃ w b, c.getArray source key id = .ok w ∧ (wholeArr w).indexList checks r.under = .ok b ∧ SameArr (wholeArr a) b ∧
      a.coords = w.coords := by
  have hsp := split_iff.2 hadj
  rcases list_parts checks h5Empty h5Odd c source key r with ⟨e, h1, -⟩ | ⟨chunks, shape, dtype, hds, h1, h2⟩
  · rw [h1] at h; simp at h
  rw [h2, listRoiShape_eq] at h
  by_cases hc : r.plain.count .ellipsis > 1 ∨ (expandIx r.plain shape.length).length ≠ shape.length
  · rw [if_pos hc] at h; simp at h
  rw [if_neg hc] at h
  cases hp : pickDims (expandIx r.plain shape.length) shape with
  | error e => rw [hp] at h; simp at h
  | ok ps =>
    rw [hp, hsp] at h
    simp only at h
    by_cases hin : (∀ i ∈ r.list, i < shape.getD (r.axis shape.length) 0) ∨ checks = false
    swap
    · rw [if_neg hin] at h; simp at h
    rw [if_pos hin] at h
    simp only [Bool.false_eq_true, if_false] at h
    generalize hps : ps.set (r.axis shape.length) (.many r.list) = ps' at h
    cases hm : mapE (readChunkList h5Empty h5Odd r) chunks with
    | error e => rw [hm] at h; simp at h
    | ok parts =>
      rw [hm] at h
      obtain rfl := Except.ok.inj h
      have hparts : ∃ parts', mapE (readChunk id) chunks = .ok parts' ∧ parts = parts'.map (partRegion ps') := by
        clear * - hds hp hm hps
        induction chunks generalizing parts with
        | nil => obtain rfl := Except.ok.inj hm; exact ⟨[], rfl, rfl⟩
        | cons ch chunks ih =>
          obtain ⟨x, xs, g1, g2, rfl⟩ := mapE_cons_ok.1 hm
          obtain ⟨xs', g3, rfl⟩ := ih (fun x hx => hds x (by simp [hx])) xs g2
          obtain ⟨ds, d1, rfl⟩ := hds ch (by simp)
          obtain ⟨x', g4, rfl⟩ := ((readChunkList_eq d1 hp hps.symm).1 x g1).1
          exact ⟨x' :: xs', mapE_cons_ok.2 ⟨_, _, g4, g3, rfl⟩, rfl⟩
      obtain ⟨parts', hm', rfl⟩ := hparts
      rw [hm'] at h1
      obtain ⟨j1, j2⟩ := joinParts_region (chunks := chunks) (shape := shape) (rshape := pickShape ps') (dtype := dtype)
        (ps := ps') parts'
      refine ⟨_, _, h1, ?_, wholeArr_index (w := joinParts chunks shape dtype parts') rfl rfl j1, j2⟩
      rw [indexList_full checks (wholeArr (joinParts chunks shape dtype parts')) rfl r]
      have hs : (joinParts chunks shape dtype parts').rowShape = shape := rfl
      rw [hs, if_neg hc, hp, hsp]
      simp only [hps]
      rw [if_pos]
      · simp
      by_cases hrows : (joinParts chunks shape dtype parts').rows = []
      · rcases hin with hin | hin
        · exact Or.inl hin
        · exact Or.inr ⟨hin, by simp [hrows]⟩
      · left
        obtain ⟨ch, hch, hn⟩ := chunk_with_data hm' hrows
        obtain ⟨ds, d1, rfl⟩ := hds ch hch
        obtain ⟨x, -, hx⟩ := mapE_ok_all hm hch
        rcases ((readChunkList_eq d1 hp hps.symm).1 x hx).2 with h0 | h0
        · exfalso
          obtain ⟨x', hx', hxx⟩ := ((readChunkList_eq d1 hp hps.symm).1 x hx).1
          rw [h0] at hxx
          unfold readChunk at hx'
          simp only at hx'
          rw [if_neg hn, d1] at hx'
          simp only at hx'
          split at hx'
          · simp at hx'
          · rw [← Except.ok.inj hx'] at hxx
            simp [partRegion] at hxx
        · exact h0.2.2

/-- C153. The region is accepted if numpy's indexing accepts it and selects something, the list increases, no slice goes backwards
and all integers stand next to the list. -/
theorem get_array_list_succeeds {checks : Bool} {h5Empty h5Odd : R Unit} {c : DC (List Nat → X)} {source key : Str} {r : ListRoi}
    {w : LArr (List Nat → X)} {b : Arr (Option X)} (hadj : Adjacent r) (hw : c.getArray source key id = .ok w)
    (hb : (wholeArr w).indexList checks r.under = .ok b) (hinc : Increasing r.list) (hback : ¬ Backwards r.pre ∧ ¬ Backwards r.post)
    (hne : 0 ∉ b.shape) : ∃ a, c.getArrayList checks h5Empty h5Odd source key r = .ok a := by
  have hsp := split_iff.2 hadj
  have hnb : ¬ Backwards r.plain := fun h => by rcases backwards_plain.1 h with h | h; exacts [hback.1 h, hback.2 h]
  rcases list_parts checks h5Empty h5Odd c source key r with ⟨e, -, h1⟩ | ⟨chunks, shape, dtype, hds, h1, h2⟩
  · rw [h1] at hw; simp at hw
  rw [h1] at hw
  cases hm : mapE (readChunk id) chunks with
  | error e => rw [hm] at hw; simp at hw
  | ok parts =>
    rw [hm] at hw
    obtain rfl := Except.ok.inj hw
    rw [indexList_full checks (wholeArr (joinParts chunks shape dtype parts)) rfl r] at hb
    have hs : (joinParts chunks shape dtype parts).rowShape = shape := rfl
    rw [hs] at hb
    rw [h2, listRoiShape_eq]
    by_cases hc : r.plain.count .ellipsis > 1 ∨ (expandIx r.plain shape.length).length ≠ shape.length
    · rw [if_pos hc] at hb; simp at hb
    rw [if_neg hc] at hb ⊢
    cases hp : pickDims (expandIx r.plain shape.length) shape with
    | error e => rw [hp] at hb; simp at hb
    | ok ps =>
      rw [hp, hsp] at hb
      simp only [Bool.false_eq_true, if_false] at hb
      generalize hps : ps.set (r.axis shape.length) (.many r.list) = ps' at hb
      split at hb
      swap
      · simp at hb
      next hor =>
      obtain rfl := Except.ok.inj hb
      simp only [Arr.pick, pickShape, List.length_range] at hne
      have hin : ∀ i ∈ r.list, i < shape.getD (r.axis shape.length) 0 := hor.resolve_right (fun h => hne h.2)
      simp only
      rw [if_pos (Or.inl hin)]
      simp only
      have hall : ∀ ch ∈ chunks, ∃ x, readChunkList h5Empty h5Odd r ch = .ok x := by
        intro ch hch
        obtain ⟨x', hr1, hr2⟩ := mapE_ok_all hm hch
        obtain ⟨ds, d1, d2⟩ := hds ch hch
        subst d2
        exact ⟨_, (readChunkList_eq d1 hp hps.symm).2.1 x' hr2
          (Or.inr ⟨increasing_iff.1 hinc, hnb, hin, hsp, Or.inl (fun h => hne (List.mem_cons_of_mem _ h))⟩)⟩
      obtain ⟨rs, hrs⟩ := mapE_exists_ok hall
      rw [hrs]
      exact ⟨_, rfl⟩

/-- C153. What numpy does not accept is refused. If there is data, a list which does not increase is refused with TypeError, and
otherwise a slice which goes backwards with ValueError. -/
theorem get_array_list_refuses {checks : Bool} {h5Empty h5Odd : R Unit} {c : DC (List Nat → X)} {source key : Str} {r : ListRoi}
    {w : LArr (List Nat → X)} (hw : c.getArray source key id = .ok w) :
    (∀ e, (wholeArr w).indexList checks r.under = .error e → ∃ e', c.getArrayList checks h5Empty h5Odd source key r = .error e') ∧
    (∀ b, (wholeArr w).indexList checks r.under = .ok b → w.rows ≠ [] → ¬ Increasing r.list →
      c.getArrayList checks h5Empty h5Odd source key r = .error .type) ∧
    (∀ b, (wholeArr w).indexList checks r.under = .ok b → w.rows ≠ [] → Increasing r.list → Backwards r.pre ∨ Backwards r.post →
      c.getArrayList checks h5Empty h5Odd source key r = .error .value) := by
  rcases list_parts checks h5Empty h5Odd c source key r with ⟨e, -, h1⟩ | ⟨chunks, shape, dtype, hds, h1, h2⟩
  · rw [h1] at hw; simp at hw
  rw [h1] at hw
  cases hm : mapE (readChunk id) chunks with
  | error e => rw [hm] at hw; simp at hw
  | ok parts =>
    rw [hm] at hw
    obtain rfl := Except.ok.inj hw
    rw [indexList_full checks (wholeArr (joinParts chunks shape dtype parts)) rfl r]
    have hs : (joinParts chunks shape dtype parts).rowShape = shape := rfl
    rw [hs, h2, listRoiShape_eq]
    by_cases hc : r.plain.count .ellipsis > 1 ∨ (expandIx r.plain shape.length).length ≠ shape.length
    · rw [if_pos hc, if_pos hc]
      exact ⟨fun e _ => ⟨_, rfl⟩, fun b hb => by simp at hb, fun b hb => by simp at hb⟩
    rw [if_neg hc, if_neg hc]
    cases hp : pickDims (expandIx r.plain shape.length) shape with
    | error e => exact ⟨fun e _ => ⟨_, rfl⟩, fun b hb => by simp at hb, fun b hb => by simp at hb⟩
    | ok ps =>
      simp only
      generalize hps : ps.set (r.axis shape.length) (.many r.list) = ps'
      -- all chunks with data raise the exception err, and there is one
      have hraise : ∀ (err : PyErr) (rs : List Nat), (joinParts chunks shape dtype parts).rows ≠ [] →
          (∀ ch ∈ chunks, ch.counts.sum ≠ 0 → readChunkList h5Empty h5Odd r ch = .error err) →
          (match mapE (readChunkList h5Empty h5Odd r) chunks with
            | .error e => Except.error e
            | .ok ps => .ok (joinParts chunks rs dtype ps)) = (.error err : R (LArr (List Nat → X))) := by
        intro err rs hne hall
        cases hr : mapE (readChunkList h5Empty h5Odd r) chunks with
        | ok xs =>
          obtain ⟨ch, hch, hn⟩ := chunk_with_data hm hne
          obtain ⟨x, -, h3⟩ := mapE_ok_all hr hch
          rw [hall ch hch hn] at h3
          simp at h3
        | error e =>
          obtain ⟨ch, hch, h3⟩ := mapE_error_mem hr
          by_cases hn : ch.counts.sum = 0
          · obtain ⟨ds, d1, rfl⟩ := hds ch hch
            rw [(readChunkList_eq d1 hp hps.symm).2.2.2.2 hn] at h3
            simp at h3
          · rw [hall ch hch hn] at h3
            rw [← Except.error.inj h3]
      refine ⟨fun e he => ?_, fun b hb hne hinc => ?_, fun b hb hne hinc hback => ?_⟩
      · split at he
        · simp at he
        next hno =>
        push Not at hno
        obtain ⟨⟨i, hi, hle⟩, hz⟩ := hno
        by_cases hck : checks = false
        · rw [if_pos (Or.inr hck)]
          have hrows : (joinParts chunks shape dtype parts).rows ≠ [] := by
            intro h0
            exact hz hck (by simp [h0])
          by_cases hl : r.list.Pairwise (· < ·)
          · refine ⟨.value, hraise _ _ hrows (fun ch hch hn => ?_)⟩
            obtain ⟨ds, d1, rfl⟩ := hds ch hch
            exact (readChunkList_eq d1 hp hps.symm).2.2.2.1 hn hl (Or.inr ⟨i, hi, hle⟩)
          · refine ⟨.type, hraise _ _ hrows (fun ch hch hn => ?_)⟩
            obtain ⟨ds, d1, rfl⟩ := hds ch hch
            exact (readChunkList_eq d1 hp hps.symm).2.2.1 hn hl
        · rw [if_neg]
          · exact ⟨_, rfl⟩
          · rintro (h | h)
            · exact absurd (h i hi) (by omega)
            · exact hck h
      · have hok : (∀ i ∈ r.list, i < shape.getD (r.axis shape.length) 0) ∨ checks = false := by
          split at hb
          next h => exact h.imp_right (fun h => h.1)
          · simp at hb
        rw [if_pos hok]
        refine hraise _ _ hne (fun ch hch hn => ?_)
        obtain ⟨ds, d1, rfl⟩ := hds ch hch
        exact (readChunkList_eq d1 hp hps.symm).2.2.1 hn (fun h => hinc (increasing_iff.2 h))
      · have hok : (∀ i ∈ r.list, i < shape.getD (r.axis shape.length) 0) ∨ checks = false := by
          split at hb
          next h => exact h.imp_right (fun h => h.1)
          · simp at hb
        rw [if_pos hok]
        refine hraise _ _ hne (fun ch hch hn => ?_)
        obtain ⟨ds, d1, rfl⟩ := hds ch hch
        exact (readChunkList_eq d1 hp hps.symm).2.2.2.1 hn (increasing_iff.1 hinc) (Or.inl (backwards_plain.2 hback))

theorem pickDims_fulls : ∀ (ns : List Nat), pickDims (List.replicate ns.length Ix.full) ns = .ok (ns.map (fun n => .many (List.range n))) := by
  intro ns
  induction ns with
  | nil => rfl
  | cons n ns ih => simp only [List.length_cons, List.replicate_succ, pickDims, pickDim_full, ih, List.map_cons]

theorem pickShape_fulls : ∀ (ns : List Nat), pickShape (ns.map (fun n => Pick.many (List.range n))) = ns := by
  intro ns
  induction ns with
  | nil => rfl
  | cons n ns ih => simp [pickShape, ih]

theorem pickIndex_fulls {idx ns : List Nat} (h : List.Forall₂ (· < ·) idx ns) :
    pickIndex (ns.map (fun n => Pick.many (List.range n))) idx = idx := by
  induction h with
  | nil => rfl
  | cons h1 h2 ih =>
    simp only [List.map_cons, pickIndex, ih, List.getD_eq_getElem?_getD, List.getElem?_range h1, Option.getD_some]

/-- C153. `roi=by_index[[i, j, ...]]`: the entries at these places along the first dimension of each entry. -/
theorem get_array_list_elements {checks : Bool} {h5Empty h5Odd : R Unit} {c : DC (List Nat → X)} {source key : Str} {l : List Nat}
    {a : LArr (List Nat → X)} (h : c.getArrayList checks h5Empty h5Odd source key ⟨[], l, []⟩ = .ok a) :
    ∃ w n rest, c.getArray source key id = .ok w ∧ w.rowShape = n :: rest ∧ a.rowShape = l.length :: rest ∧ a.coords = w.coords ∧
      a.rows.length = w.rows.length ∧
      ∀ (k : Nat) (hk : k < a.rows.length) (hk' : k < w.rows.length) (j : Nat) (hj : j < l.length) (idx : List Nat),
        List.Forall₂ (· < ·) idx rest → l[j] < n ∧ a.rows[k] (j :: idx) = w.rows[k] (l[j] :: idx) := by
  obtain ⟨w, b, hw, hb, ⟨hd, hshape, hget⟩, hco⟩ := get_array_list_exact_partial ⟨[], [], [], [], rfl, rfl, by simp⟩ h
  rw [indexList_full checks (wholeArr w) rfl] at hb
  split at hb
  · simp at hb
  next hc =>
  push Not at hc
  have hpl : (⟨[], l, []⟩ : ListRoi).plain = [Ix.full] := rfl
  rw [hpl] at hb hc
  have hex : ∀ k, expandIx [Ix.full] k = Ix.full :: List.replicate (k - 1) Ix.full := by
    intro k
    unfold expandIx
    rw [if_neg (by decide)]
    rfl
  rw [hex] at hc hb
  obtain ⟨n, rest, hws⟩ : ∃ n rest, w.rowShape = n :: rest := by
    cases hws : w.rowShape with
    | nil => rw [hws] at hc; simp at hc
    | cons n rest => exact ⟨n, rest, rfl⟩
  rw [hws] at hb
  have hax : (⟨[], l, []⟩ : ListRoi).axis (n :: rest).length = 0 := rfl
  have hp := pickDims_fulls (n :: rest)
  rw [List.length_cons, List.replicate_succ] at hp
  simp only [List.length_cons, Nat.add_sub_cancel] at hb
  rw [hp] at hb
  simp only at hb
  split at hb
  swap
  · simp at hb
  next hin =>
  have hsp : (⟨[], l, []⟩ : ListRoi).split = false := rfl
  rw [hsp] at hb
  simp only [Bool.false_eq_true, if_false] at hb
  rw [List.length_cons] at hax
  simp only [hax, List.map_cons, List.set_cons_zero, List.getD_cons_zero] at hb hin
  obtain rfl := Except.ok.inj hb
  simp only [wholeArr, Arr.pick, pickShape, pickShape_fulls, List.length_range, List.cons.injEq] at hshape
  refine ⟨w, n, rest, hw, hws, hshape.2, hco, hshape.1, fun k hk hk' j hj idx hidx => ?_⟩
  have hlt : l[j] < n := by
    rcases hin with hin | ⟨-, hin⟩
    · exact hin _ (List.getElem_mem hj)
    · exfalso
      simp only [pickShape, pickShape_fulls, List.mem_cons] at hin
      rcases hin with h0 | h0 | h0
      · omega
      · omega
      · clear * - h0 hidx
        induction hidx with
        | nil => simp at h0
        | cons h1 _ ih =>
          rcases List.mem_cons.1 h0 with h0 | h0
          · omega
          · exact ih h0
  refine ⟨hlt, ?_⟩
  have := hget (k :: j :: idx) (by
    simp only [wholeArr, hshape.2]
    exact List.Forall₂.cons hk (List.Forall₂.cons hj hidx))
  simp only [wholeArr, Arr.pick, pickIndex, pickIndex_fulls hidx, List.getD_eq_getElem?_getD, List.getElem?_range hk',
    Option.getD_some, List.getElem?_eq_getElem hj, List.getElem?_eq_getElem hk, List.getElem?_eq_getElem hk', Option.map_some] at this
  exact Option.some.inj this

/-- C153, negation. If a slice or an ellipsis is between the list and some integer, `get_array` never gives data: it raises an
exception or gives an array without elements. -/
theorem get_array_list_apart_wrong {checks : Bool} {h5Empty h5Odd : R Unit} {c : DC (List Nat → X)} {source key : Str} {r : ListRoi}
    {a : LArr (List Nat → X)} (hadj : ¬ Adjacent r) (h : c.getArrayList checks h5Empty h5Odd source key r = .ok a) :
    NoElements (wholeArr a) := by
  have hsp : r.split = true := by
    cases hsp : r.split with
    | true => rfl
    | false => exact absurd (split_iff.1 hsp) hadj
  rcases list_parts checks h5Empty h5Odd c source key r with ⟨e, h1, -⟩ | ⟨chunks, shape, dtype, hds, h1, h2⟩
  · rw [h1] at h; simp at h
  rw [h2, listRoiShape_eq] at h
  split at h
  · simp at h
  next rs hrs =>
  split at h
  · simp at h
  obtain rfl := Except.ok.inj h
  have hz : ∃ rest, rs = 0 :: rest := by
    split at hrs
    · simp at hrs
    split at hrs
    · simp at hrs
    split at hrs
    · exact ⟨_, (Except.ok.inj hrs).symm⟩
    · simp at hrs
  obtain ⟨rest, rfl⟩ := hz
  rintro ⟨idx, hidx⟩
  simp only [wholeArr, joinParts] at hidx
  cases hidx with
  | cons h1 h2 =>
    cases h2 with
    | cons h3 _ => omega

/-- A file with entries of shape (2, 2, 3). -/
def exRoiList : DC (List Nat → Nat) where
  files := [⟨ch! "a", [1, 2], [], [ch! "D:o"],
    { trainId := some [1, 2], version := some (ch! "1.0"), sources05 := none,
      sources10 := some [ch! "INSTRUMENT/D:o/data"],
      index := [([ch! "INDEX", ch! "D:o", ch! "data"], ⟨some [0, 2], some [2, 1], none, none⟩)],
      groups := [], datasets := [([ch! "INSTRUMENT", ch! "D:o", ch! "data", ch! "y"],
        ⟨[fun idx => 1000 + 100 * idx.getD 0 0 + 10 * idx.getD 1 0 + idx.getD 2 0,
          fun idx => 2000 + 100 * idx.getD 0 0 + 10 * idx.getD 1 0 + idx.getD 2 0,
          fun idx => 3000 + 100 * idx.getD 0 0 + 10 * idx.getD 1 0 + idx.getD 2 0], [2, 2, 3], 0⟩)] }⟩]
  selection := [(ch! "D:o", none)]
  trainIds := [1, 2]
  ctxCloses := true

/-- `roi=by_index[..., 1, [0, 2]]`: what was asked for. `by_index[..., [2, 0]]`: TypeError. `by_index[..., [3]]`: IndexError or ValueError.
`by_index[1, [0, 1], ::-1]`: ValueError. -/
example :
    (exRoiList.getArrayList true (.ok ()) (.ok ()) (ch! "D:o") (ch! "data.y") ⟨[.ellipsis, .int 1], [0, 2], []⟩).map
      (fun a => (a.rowShape, a.coords, a.rows.map (fun r => (r [0, 0], r [0, 1], r [1, 1])))) =
      .ok ([2, 2], some [1, 1, 2], [(1010, 1012, 1112), (2010, 2012, 2112), (3010, 3012, 3112)]) ∧
    (exRoiList.getArrayList true (.ok ()) (.ok ()) (ch! "D:o") (ch! "data.y") ⟨[.ellipsis], [2, 0], []⟩).map (fun a => a.rowShape) =
      .error .type ∧
    (exRoiList.getArrayList true (.ok ()) (.ok ()) (ch! "D:o") (ch! "data.y") ⟨[.ellipsis], [3], []⟩).map (fun a => a.rowShape) =
      .error .index ∧
    (exRoiList.getArrayList false (.ok ()) (.ok ()) (ch! "D:o") (ch! "data.y") ⟨[.ellipsis], [3], []⟩).map (fun a => a.rowShape) =
      .error .value ∧
    (exRoiList.getArrayList true (.ok ()) (.ok ()) (ch! "D:o") (ch! "data.y") ⟨[.int 1], [0, 1], [.slice none none (some (-1))]⟩).map
      (fun a => a.rowShape) = .error .value :=
  ⟨by decide, by decide, by decide, by decide, by decide⟩

/-- `roi=by_index[1, :, [0, 2]]`: the integer is apart from the list. numpy selects elements, but `get_array` raises an exception or
gives an array without elements, as the version of h5py has it. -/
theorem get_array_list_apart_example :
    ¬ Adjacent ⟨[.int 1, .full], [0, 2], []⟩ ∧
    (exRoiList.getArray (ch! "D:o") (ch! "data.y") id).map (fun w =>
      ((wholeArr w).indexList true (⟨[.int 1, .full], [0, 2], []⟩ : ListRoi).under).map (fun b => (b.shape, b.get [1, 0, 1], b.get [0, 2, 0]))) =
      .ok (.ok ([2, 3, 2], some 1112, some 3100)) ∧
    (exRoiList.getArrayList true (.ok ()) (.ok ()) (ch! "D:o") (ch! "data.y") ⟨[.int 1, .full], [0, 2], []⟩).map (fun a => a.rowShape) =
      .ok [0, 2] ∧
    (exRoiList.getArrayList true (.ok ()) (.error .type) (ch! "D:o") (ch! "data.y") ⟨[.int 1, .full], [0, 2], []⟩).map
      (fun a => a.rowShape) = .error .type := by
  exact ⟨fun h => absurd (split_iff.2 h) (by decide), by decide, by decide, by decide⟩

end KD

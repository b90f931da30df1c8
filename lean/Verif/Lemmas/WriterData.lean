/- Helper lemmas about writing: the keys of a group share their labels; virtual datasets have the data of arrays. -/
import Verif.Lemmas.Writer

set_option linter.unusedSimpArgs false

namespace KD
open Spec

variable {V : Type}

/-! ### Keys of the same group -/

theorem mapE_post {α β γ : Type _} {f : α → R β} {f' : α → R γ} {g : β → γ} (h : ∀ a, f' a = (f a).map g) (l : List α) :
    mapE f' l = (mapE f l).map (List.map g) := by
  induction l with
  | nil => rfl
  | cons a l ih =>
    simp only [mapE, h, ih]
    cases f a with
    | error e => rfl
    | ok b =>
      cases mapE f l with
      | error e => rfl
      | ok bs => rfl

/-- The same chunk for another key. -/
def setKey (key : Str) (ch : Chunk V) : Chunk V := { ch with key := key }

theorem chunksOfFile_setKey {c : DC V} {source key key' : Str} (hg : c.keyGroup source key' = c.keyGroup source key)
    (f : FileAccess V) : c.chunksOfFile source key' f = (c.chunksOfFile source key f).map (List.map (setKey key')) := by
  unfold DC.chunksOfFile
  rw [hg]
  cases f.getIndex source (c.keyGroup source key) with
  | error e => rfl
  | ok ix =>
    obtain ⟨firsts, counts⟩ := ix
    simp only
    cases contiguousRegions (f.trainIds.map (fun t => decide (t ∈ c.trainIds))) with
    | error e => rfl
    | ok regions =>
      simp only
      rw [mapE_post (f := regionChunk f source key firsts counts) (g := setKey key')]
      · cases mapE (regionChunk f source key firsts counts) regions with
        | error e => rfl
        | ok chs => cases chs <;> rfl
      · intro r
        unfold regionChunk
        cases nth firsts r.1 <;> rfl

theorem sortBy_map {α β : Type _} {k : α → Nat} {k' : β → Nat} {g : α → β} (h : ∀ a, k' (g a) = k a) (l : List α) :
    sortBy k' (l.map g) = (sortBy k l).map g := by
  unfold sortBy
  symm
  apply List.map_insertionSort
  intro a _ b _
  simp [h]

theorem sortedChunks_setKey {c : DC V} {source key key' : Str} (hg : c.keyGroup source key' = c.keyGroup source key) :
    c.sortedChunks source key' = (c.sortedChunks source key).map (List.map (setKey key')) := by
  unfold DC.sortedChunks DC.findDataChunks
  rw [mapE_post (f := c.chunksOfFile source key) (g := List.map (setKey key')) (fun f => chunksOfFile_setKey hg f)]
  cases mapE (c.chunksOfFile source key) (c.sourceIndex source) with
  | error e => rfl
  | ok css =>
    simp only [Except.map]
    rw [← List.map_flatten, sortBy_map (k := Chunk.sortKey) (g := setKey key') (fun _ => rfl)]

/-- Keys in the same group have entries for the same trains. -/
theorem group_labels {c : DC V} {source key key' : Str} {a a' : LArr V} (hg : c.keyGroup source key' = c.keyGroup source key)
    (h : c.getArray source key id = .ok a) (h' : c.getArray source key' id = .ok a') :
    a'.coords.getD [] = a.coords.getD [] := by
  obtain ⟨-, chunks, h1, -, h2, -⟩ := getArray_ok h
  obtain ⟨-, chunks', h1', -, h2', -⟩ := getArray_ok h'
  rw [sortedChunks_setKey hg, h1] at h1'
  simp only [Except.map] at h1'
  obtain rfl := Except.ok.inj h1'
  rw [h2, h2', List.flatMap_map]
  rfl

/-! ### Virtual datasets -/

theorem filter_orderedInsert {α : Type _} (k : α → Nat) (p : α → Bool) (a : α) (l : List α)
    (hl : l.Pairwise (fun x y => k x ≤ k y)) :
    (l.orderedInsert (fun x y => k x ≤ k y) a).filter p =
      if p a then (l.filter p).orderedInsert (fun x y => k x ≤ k y) a else l.filter p := by
  induction l with
  | nil => by_cases h : p a <;> simp [h]
  | cons b l ih =>
    rw [List.pairwise_cons] at hl
    have ih := ih hl.2
    rw [List.orderedInsert_cons]
    by_cases hab : k a ≤ k b
    · rw [if_pos hab]
      by_cases ha : p a
      · rw [if_pos ha, List.filter_cons_of_pos ha]
        cases hf : (b :: l).filter p with
        | nil => rfl
        | cons x r =>
          have hx : x ∈ b :: l := (List.mem_filter.1 (hf ▸ List.mem_cons_self)).1
          rw [List.orderedInsert_cons, if_pos]
          rcases List.mem_cons.1 hx with rfl | hx
          · exact hab
          · exact Nat.le_trans hab (hl.1 x hx)
      · rw [if_neg ha, List.filter_cons_of_neg ha]
    · rw [if_neg hab]
      by_cases hb : p b
      · rw [List.filter_cons_of_pos hb, ih, List.filter_cons_of_pos hb]
        by_cases ha : p a
        · simp only [ha, if_true]; rw [List.orderedInsert_cons, if_neg hab]
        · simp [ha]
      · rw [List.filter_cons_of_neg hb, ih, List.filter_cons_of_neg hb]

theorem filter_sortBy {α : Type _} (k : α → Nat) (p : α → Bool) (l : List α) :
    sortBy k (l.filter p) = (sortBy k l).filter p := by
  induction l with
  | nil => rfl
  | cons a l ih =>
    have hs : (sortBy k l).Pairwise (fun x y => k x ≤ k y) := by
      have := @List.pairwise_insertionSort α (fun x y => k x ≤ k y) _
        ⟨fun x y => Nat.le_total _ _⟩ ⟨fun x y z h1 h2 => Nat.le_trans h1 h2⟩ l
      exact this
    unfold sortBy at ih hs ⊢
    rw [List.insertionSort_cons, filter_orderedInsert k p a _ hs, ← ih]
    by_cases h : p a
    · rw [List.filter_cons_of_pos h, List.insertionSort_cons, if_pos h]
    · rw [List.filter_cons_of_neg h, if_neg h]

theorem sum_eq_zero_of {l : List Nat} (h : ∀ n ∈ l, n = 0) : l.sum = 0 := by
  induction l with
  | nil => rfl
  | cons a l ih => simp [h a (by simp), ih (fun n hn => h n (by simp [hn]))]

theorem nonEmpty_false {ch : Chunk V} (h : ch.nonEmpty = false) : ch.counts.sum = 0 := by
  unfold Chunk.nonEmpty at h
  rw [List.any_eq_false] at h
  apply sum_eq_zero_of
  intro n hn
  have := h n hn
  simp at this
  exact this

theorem flatMap_filter_nonEmpty {β : Type _} {g : Chunk V → List β} (hg : ∀ ch, ch.counts.sum = 0 → g ch = [])
    (l : List (Chunk V)) : (l.filter Chunk.nonEmpty).flatMap g = l.flatMap g := by
  induction l with
  | nil => rfl
  | cons ch l ih =>
    by_cases h : ch.nonEmpty
    · rw [List.filter_cons_of_pos h, List.flatMap_cons, List.flatMap_cons, ih]
    · rw [List.filter_cons_of_neg h, ih, List.flatMap_cons, hg ch (nonEmpty_false (by simpa using h))]
      rfl

/-- Where a virtual dataset can be made, the chunks are full. -/
theorem assembleData_full {c : DC V} {source key : Str} {x : Dataset V × List Nat}
    (h : assembleData c source key = .ok (some x)) {chunks : List (Chunk V)} (hch : c.sortedChunks source key = .ok chunks) :
    FullChunks chunks := by
  unfold assembleData at h
  unfold DC.sortedChunks at hch
  split at h
  · simp at h
  next cs hcs =>
  rw [hcs] at hch
  obtain rfl := Except.ok.inj hch
  rw [filter_sortBy] at h
  split at h
  · simp at h
  next ch0 chs hfl =>
  split at h
  · simp at h
  next ds0 hds0 =>
  split at h
  · simp at h
  next parts hparts =>
  intro ch hm
  by_cases h0 : ch.counts.sum = 0
  · unfold rowsOf; split <;> simp [slice, h0]
  · have hm' : ch ∈ ch0 :: chs := by
      rw [← hfl, List.mem_filter]
      refine ⟨hm, ?_⟩
      by_contra hne
      exact h0 (nonEmpty_false (by simpa using hne))
    obtain ⟨p, -, hp⟩ := mapE_ok_all hparts hm'
    unfold virtualPart at hp
    unfold rowsOf
    split at hp
    · simp at hp
    next ds hds =>
    simp only at hp
    split at hp
    · next hl => rw [hds]; simp only; rw [← sl_eq_slice]; exact hl.1
    · simp at hp

/-- The virtual dataset for a field with data is the array of the field, with the same labels. -/
theorem assembleData_array {c : DC V} {source key : Str} {a : LArr V} {tids : List Nat}
    (h : c.getArray source key id = .ok a) (ht : a.coords = some tids)
    (hfull : ∀ chunks, c.sortedChunks source key = .ok chunks → FullChunks chunks) :
    assembleData c source key = .ok (some (⟨a.rows, a.rowShape, a.dtype⟩, tids)) := by
  obtain ⟨-, chunks, h1, h2, h3, h4, h5, -⟩ := getArray_ok h
  have hsz := hfull chunks h1
  have h2 := h2 hsz
  unfold DC.sortedChunks at h1
  unfold assembleData
  cases hcs : c.findDataChunks source key with
  | error e => rw [hcs] at h1; simp at h1
  | ok cs =>
    rw [hcs] at h1
    obtain rfl := Except.ok.inj h1
    simp only
    rw [filter_sortBy]
    have hall : ∀ ch ∈ (sortBy Chunk.sortKey cs).filter Chunk.nonEmpty,
        ∃ ds, ch.dataset = .ok ds ∧ ds.rowShape = a.rowShape ∧ ds.dtype = a.dtype ∧
          virtualPart a.rowShape ch = .ok (rowsOf ch) := by
      intro ch hm
      obtain ⟨hm1, hm2⟩ := List.mem_filter.1 hm
      obtain ⟨ds, d1, d2, d3⟩ := h5 ch hm1
      have e2 := hsz ch hm1
      unfold rowsOf at e2
      rw [d1] at e2
      simp only at e2
      rw [← sl_eq_slice] at e2
      refine ⟨ds, d1, d2, d3, ?_⟩
      unfold virtualPart rowsOf
      rw [d1]
      simp only
      rw [if_pos ⟨e2, d2⟩, sl_eq_slice]
    have hr := flatMap_filter_nonEmpty (g := rowsOf) (fun ch h0 => by
      unfold rowsOf; split <;> simp [slice, h0]) (sortBy Chunk.sortKey cs)
    have hl := flatMap_filter_nonEmpty (g := labelsOf) (fun ch h0 => npRepeat_sum_zero _ _ h0) (sortBy Chunk.sortKey cs)
    cases hfl : (sortBy Chunk.sortKey cs).filter Chunk.nonEmpty with
    | nil =>
      exfalso
      have hn : a.coords = none := by
        rw [h4]
        apply sum_eq_zero_of
        intro n hn
        obtain ⟨ch, hm, rfl⟩ := List.mem_map.1 hn
        rw [List.filter_eq_nil_iff] at hfl
        exact nonEmpty_false (by simpa using hfl ch hm)
      rw [ht] at hn; simp at hn
    | cons ch0 chs =>
      rw [hfl] at hall hr hl
      simp only
      obtain ⟨ds, d1, d2, d3, -⟩ := hall ch0 (by simp)
      rw [d1]
      simp only
      rw [d2, mapE_ok_of_forall (g := rowsOf) (fun ch hm => by
        obtain ⟨_, -, -, -, h⟩ := hall ch hm; exact h)]
      simp only
      rw [ht, Option.getD_some] at h3
      rw [d3, ← List.flatMap_def, hr, show (ch0 :: chs).flatMap (fun ch => npRepeat ch.trainIds ch.counts) = _ from hl, ← h3]
      simp [h2]

theorem fldVirtual_data {c : DC V} {F : Fld} {x : Dataset V × List Nat} (h : fldData c F = some x)
    (hfull : ∀ chunks, c.sortedChunks F.2.1 F.2.2 = .ok chunks → FullChunks chunks) :
    assembleData c F.2.1 F.2.2 = .ok (some x) ∧ fldVirtual c F = some x := by
  obtain ⟨a, h1, h2, h3⟩ := fldData_some h
  have := assembleData_array h1 h2 hfull
  rw [← h3] at this
  refine ⟨this, ?_⟩
  unfold fldVirtual
  rw [this]

end KD

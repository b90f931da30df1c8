/- Property C34: `get_dask_array` and `get_array`. -/
import Verif.Lemmas.OneTrain
import Verif.Lemmas.WriterData
import Verif.Props.OrderGaps
import Verif.Spec.Regions

set_option linter.unusedSimpArgs false

namespace KD
open Spec

variable {V : Type}

/-- A stretch without data: the file has data of this field, but either none of its trains is selected, or there is a
run of neighbouring selected trains in the file none of which has any entries. -/
def EmptyStretch (c : DC V) (f : FileAccess V) (instr : Bool) (source key : Str) : Prop :=
  (∃ ds, f.dataset (sectionName instr) source key = .ok ds ∧ ds.rows ≠ []) ∧
  ((∀ t ∈ f.trainIds, t ∉ c.trainIds) ∨
    ∃ a b, IsMaximalRun (f.trainIds.map (fun t => decide (t ∈ c.trainIds))) a b ∧
      ∀ i t, a ≤ i → i < b → f.trainIds[i]? = some t → fileEntries f instr source key t = [])

theorem sl_sum_zero {counts : List Nat} {a b : Nat} :
    (sl counts a b).sum = 0 ↔ ∀ i n, a ≤ i → i < b → counts[i]? = some n → n = 0 := by
  constructor
  · intro h i n h1 h2 h3
    apply sum_zero_mem h
    unfold sl
    rw [List.mem_iff_getElem?]
    refine ⟨i - a, ?_⟩
    rw [List.getElem?_take, if_pos (by omega), List.getElem?_drop]
    rw [show a + (i - a) = i by omega]; exact h3
  · intro h
    apply sum_eq_zero_of
    intro n hn
    unfold sl at hn
    rw [List.mem_iff_getElem?] at hn
    obtain ⟨j, hj⟩ := hn
    rw [List.getElem?_take] at hj
    split at hj
    · rw [List.getElem?_drop] at hj
      exact h (a + j) n (by omega) (by omega) hj
    · simp at hj

/-- The chunks without entries of a file. -/
theorem chunksOfFile_empty {c : DC V} {f : FileAccess V} {instr : Bool} {source key : Str} {chs : List (Chunk V)}
    (hidx : IndexedField f instr source key) (hne0 : f.trainIds ≠ []) (hg : c.keyGroup source key = groupName instr key)
    (hch : c.chunksOfFile source key f = .ok chs) :
    (∃ ch ∈ chs, ch.counts.sum = 0) ↔ ((∀ t ∈ f.trainIds, t ∉ c.trainIds) ∨
      ∃ a b, IsMaximalRun (f.trainIds.map (fun t => decide (t ∈ c.trainIds))) a b ∧
        ∀ i t, a ≤ i → i < b → f.trainIds[i]? = some t → fileEntries f instr source key t = []) := by
  obtain ⟨firsts, counts, ds, hix, hds, hl1, hl2, hin⟩ := hidx.data
  have hmask : f.trainIds.map (fun t => decide (t ∈ c.trainIds)) ≠ [] := by simp [hne0]
  have hreg := contiguousRegions_eq_runs _ hmask
  have hrun := fun a b => (mem_runs _ _ 0 (Nat.zero_le _) (List.drop_zero (l := f.trainIds.map (fun t => decide (t ∈ c.trainIds))))).1 (Or.inl rfl) a b
  unfold DC.chunksOfFile at hch
  rw [hg, hix] at hch
  simp only [hreg] at hch
  split at hch
  · simp at hch
  next chunks hchunks =>
  have hent : ∀ (i t : Nat), f.trainIds[i]? = some t → ∃ n : Nat, counts[i]? = some n ∧ (fileEntries f instr source key t = [] ↔ n = 0) := by
    intro i t ht
    obtain ⟨firsts', counts', ds', a, n, e1, e2, e3, e4, e5, e6⟩ := fileEntries_at hidx ht
    rw [hix] at e1
    obtain ⟨rfl, rfl⟩ : firsts = firsts' ∧ counts = counts' := by simpa using e1
    refine ⟨n, e4, ?_⟩
    rw [e6, ← List.length_eq_zero_iff]
    unfold slice
    rw [List.length_take, List.length_drop]
    omega
  have hzero : ∀ a b, b ≤ f.trainIds.length → ((sl counts a b).sum = 0 ↔
      ∀ i t, a ≤ i → i < b → f.trainIds[i]? = some t → fileEntries f instr source key t = []) := by
    intro a b hb
    rw [sl_sum_zero]
    constructor
    · intro h i t h1 h2 h3
      obtain ⟨n, n1, n2⟩ := hent i t h3
      exact n2.2 (h i n h1 h2 n1)
    · intro h i n h1 h2 h3
      have hlt : i < f.trainIds.length := by omega
      obtain ⟨n', n1, n2⟩ := hent i _ (List.getElem?_eq_getElem hlt)
      rw [h3] at n1
      obtain rfl := Option.some.inj n1
      exact n2.1 (h i _ h1 h2 (List.getElem?_eq_getElem hlt))
  have hmem : ∀ ch, ch ∈ chunks ↔ ∃ r ∈ runs none 0 (f.trainIds.map (fun t => decide (t ∈ c.trainIds))),
      regionChunk f source key firsts counts r = .ok ch := fun ch => mapE_mem hchunks
  have hnone : chunks = [] ↔ ∀ t ∈ f.trainIds, t ∉ c.trainIds := by
    constructor
    · rintro rfl t ht htc
      have hn : runs none 0 (f.trainIds.map (fun t => decide (t ∈ c.trainIds))) = [] := by
        have := mapE_length hchunks
        exact List.eq_nil_of_length_eq_zero (by simpa using this.symm)
      have hsub := (runs_flatMap_sl f.trainIds (f.trainIds.map (fun t => decide (t ∈ c.trainIds))) 0 (by simp)).1
      rw [hn] at hsub
      simp only [List.flatMap_nil, List.drop_zero] at hsub
      rw [maskSel_map] at hsub
      have : t ∈ f.trainIds.filter (fun t => decide (t ∈ c.trainIds)) := List.mem_filter.2 ⟨ht, by simpa using htc⟩
      rw [← hsub] at this
      simp at this
    · intro h
      rw [List.eq_nil_iff_forall_not_mem]
      intro ch hm
      obtain ⟨⟨a, b⟩, hr, -⟩ := (hmem ch).1 hm
      obtain ⟨⟨h1, h2, h3, -⟩, -⟩ := (hrun a b).1 hr
      have := h3 a (Nat.le_refl a) h1
      rw [List.getElem?_map] at this
      cases ht : f.trainIds[a]? with
      | none => rw [ht] at this; simp at this
      | some t =>
        rw [ht] at this
        exact h t (List.mem_of_getElem? ht) (by simpa using this)
  split at hch
  · next he =>
    have hnil := List.isEmpty_iff.1 he
    obtain rfl := Except.ok.inj hch
    exact ⟨fun _ => Or.inl (hnone.1 hnil), fun _ => ⟨_, List.mem_singleton.2 rfl, rfl⟩⟩
  · next he =>
    have hne : ¬ ∀ t ∈ f.trainIds, t ∉ c.trainIds := fun h => he (List.isEmpty_iff.2 (hnone.2 h))
    obtain rfl := Except.ok.inj hch
    constructor
    · rintro ⟨ch, hm, h0⟩
      obtain ⟨⟨a, b⟩, hr, hrc⟩ := (hmem ch).1 hm
      have hrun' := ((hrun a b).1 hr).1
      refine Or.inr ⟨a, b, hrun', ?_⟩
      unfold regionChunk at hrc
      split at hrc
      · simp at hrc
      obtain rfl := Except.ok.inj hrc
      exact (hzero a b (by simpa using hrun'.2.1)).1 h0
    · rintro (h | ⟨a, b, hr, h⟩)
      · exact absurd h hne
      · have hm := (hrun a b).2 ⟨hr, Nat.zero_le a⟩
        have hble : b ≤ f.trainIds.length := by simpa using hr.2.1
        have hlt : a < firsts.length := by have := hr.1; omega
        obtain ⟨ch, c1, c2⟩ := mapE_ok_all hchunks hm
        refine ⟨ch, c1, ?_⟩
        unfold regionChunk at c2
        rw [nth_ok_of_lt hlt] at c2
        obtain rfl := Except.ok.inj c2
        exact (hzero a b hble).2 h

theorem getDaskArray_eq {c : DC V} {source key : Str} {chunks : List (Chunk V)} (hch : c.sortedChunks source key = .ok chunks) :
    c.getDaskArray source key =
      match mapE daskPart chunks with
      | .error e => .error e
      | .ok parts => daskConcat parts := by
  unfold DC.sortedChunks at hch
  unfold DC.getDaskArray
  split at hch
  · simp at hch
  · next hcs =>
    obtain rfl := Except.ok.inj hch
    rw [hcs]
    rfl

/-- Chunks without entries, of datasets which have some, are the stretches without data. -/
theorem empty_chunk_iff {c : DC V} {instr : Bool} {source key : Str}
    (hv : FollowsIn c c.trainIds instr source key) (hs : source ∈ c.allSources) {chunks : List (Chunk V)}
    (hch : c.sortedChunks source key = .ok chunks) :
    (∃ ch ∈ chunks, ∃ ds, ch.dataset = .ok ds ∧ ch.counts.sum = 0 ∧ ds.rows ≠ []) ↔
      ∃ f ∈ c.files, Holds f source ∧ EmptyStretch c f instr source key := by
  have hg := keyGroup_follows hv hs
  have hds := (sortedChunks_any_files (followsIn_readable hv) hs hch).1
  constructor
  · rintro ⟨ch, hm, ds, hd, h0, hr⟩
    obtain ⟨f, f1, f2, f3, ds', w, g1, g2, -⟩ := hds ch hm
    rw [hd] at g2
    obtain rfl := Except.ok.inj g2
    obtain ⟨f', f1', f2', chs, e1, e2⟩ := (mem_sortedChunks hch ch).1 hm
    have := (chunksOfFile_file e1 ch e2).1
    rw [f3] at this
    subst this
    exact ⟨f, f1, f2, ⟨ds, g1, hr⟩, (chunksOfFile_empty (hv f f1 f2).2.2.1 (hv f f1 f2).2.1 hg e1).1 ⟨ch, e2, h0⟩⟩
  · rintro ⟨f, f1, f2, ⟨ds, d1, d2⟩, he⟩
    obtain ⟨chs, ds', e1, e3, -⟩ := chunksOfFile_any_facts (followsIn_readable hv f f1 f2) hg
    obtain ⟨ch, m1, m2⟩ := (chunksOfFile_empty (hv f f1 f2).2.2.1 (hv f f1 f2).2.1 hg e1).2 he
    have e2 := (e3 ch m1).2.2.2
    rw [d1] at e2
    obtain rfl := Except.ok.inj e2
    exact ⟨ch, (mem_sortedChunks hch ch).2 ⟨f, f1, f2, chs, e1, m1⟩, ds, (e3 ch m1).1, m2, d2⟩

/-- C34, partial. For an available field (the entries of selected trains next to each other follow each other) with matching shapes and types, `get_dask_array` computes to the
entries of `get_array`, unless there is a stretch without data in some file; then it raises ZeroDivisionError, although
`get_array` works. Missing from the full property: these stretches, and fields where the index does not match the
data (`dask_array_truncated_wrong`). -/
theorem dask_array_eq_partial {c : DC V} {instr : Bool} {source key : Str} (hc : NoConflict c.files)
    (hv : FollowsIn c c.trainIds instr source key) (ha : Available c source key) (hm : ¬ Mismatch c instr source key) :
    ∃ a, c.getArray source key id = .ok a ∧
      ((∀ f ∈ c.files, Holds f source → ¬ EmptyStretch c f instr source key) → c.getDaskArray source key = .ok a.rows) ∧
      ((∃ f ∈ c.files, Holds f source ∧ EmptyStretch c f instr source key) →
        c.getDaskArray source key = .error .zeroDivision) := by
  obtain ⟨a, h1, -⟩ := (get_array_mismatch_gaps id hc hv ha).2 hm
  refine ⟨a, h1, ?_⟩
  have hs := ha.1
  have hg := keyGroup_follows hv hs
  obtain ⟨-, chunks, hch, hrows, -, -, hshape, hne⟩ := getArray_ok h1
  have hrows := hrows (fullChunks_gaps hc hv hs hch)
  have hds := (sortedChunks_any_files (followsIn_readable hv) hs hch).1
  have hdask := getDaskArray_eq hch
  have hbad := empty_chunk_iff hv hs hch
  rw [hdask]
  constructor
  · intro hno
    have hno' : ¬ ∃ ch ∈ chunks, ∃ ds, ch.dataset = .ok ds ∧ ch.counts.sum = 0 ∧ ds.rows ≠ [] := by
      rw [hbad]; rintro ⟨f, h1, h2, h3⟩; exact hno f h1 h2 h3
    have : mapE daskPart chunks = .ok (chunks.map (fun ch => (rowsOf ch, a.rowShape))) := by
      apply mapE_ok_of_forall
      intro ch hm
      obtain ⟨ds, hd, hd2, -⟩ := hshape ch hm
      simp only [rowsOf, daskPart, hd, sl_eq_slice, hd2]
      rw [if_neg]
      rintro ⟨z1, z2⟩
      exact hno' ⟨ch, hm, ds, hd, z1, z2⟩
    rw [this]
    simp only
    unfold daskConcat
    rw [if_neg (by simpa using hne), if_neg]
    · rw [hrows]
      simp [List.flatMap_def, Function.comp_def]
    · rw [dedup_length_le_one]
      rintro ⟨x, hx, y, hy, hxy⟩
      apply hxy
      simp only [List.mem_map, List.mem_filter] at hx hy
      obtain ⟨_, ⟨⟨_, -, rfl⟩, -⟩, rfl⟩ := hx
      obtain ⟨_, ⟨⟨_, -, rfl⟩, -⟩, rfl⟩ := hy
      rfl
  · intro he
    obtain ⟨ch, hm, ds, hd, h0, hr⟩ := hbad.2 he
    have herr : ∀ e, mapE daskPart chunks = .error e → e = .zeroDivision := by
      intro e h
      obtain ⟨ch', hm', he'⟩ := mapE_error_mem h
      obtain ⟨f, -, -, -, ds', w, -, g2, -⟩ := hds ch' hm'
      unfold daskPart at he'
      rw [g2] at he'
      simp only at he'
      split at he'
      · simpa using he'.symm
      · simp at he'
    cases hmp : mapE daskPart chunks with
    | error e => rw [herr e hmp]
    | ok parts =>
      obtain ⟨p, -, hp⟩ := mapE_ok_all hmp hm
      unfold daskPart at hp
      rw [hd] at hp
      simp only at hp
      rw [if_pos ⟨h0, hr⟩] at hp
      simp at hp

/-- C34. Without stretches without data, `get_dask_array` works exactly when the entries have the same shape in all the files whose
data have any elements; otherwise it raises ValueError. Files without entries, or with entries without elements, may have
another shape. -/
theorem dask_array_shapes {c : DC V} {instr : Bool} {source key : Str} (hc : NoConflict c.files)
    (hv : FollowsIn c c.trainIds instr source key) (ha : Available c source key)
    (hno : ∀ f ∈ c.files, Holds f source → ¬ EmptyStretch c f instr source key) :
    ((∃ rows, c.getDaskArray source key = .ok rows) ↔
      ∀ f ∈ c.files, Holds f source → ∀ f' ∈ c.files, Holds f' source → ∀ d d',
        f.dataset (sectionName instr) source key = .ok d → f'.dataset (sectionName instr) source key = .ok d' →
        d.rows ≠ [] → 0 ∉ d.rowShape → d'.rows ≠ [] → 0 ∉ d'.rowShape → d.rowShape = d'.rowShape) ∧
    ∀ e, c.getDaskArray source key = .error e → e = .value := by
  have hs := ha.1
  obtain ⟨chunks, hch, -⟩ := sortedChunks_any hc (followsIn_readable hv) hs
  obtain ⟨hds, hfile⟩ := sortedChunks_any_files (followsIn_readable hv) hs hch
  have hfull := fullChunks_gaps hc hv hs hch
  have hbad := empty_chunk_iff hv hs hch
  have hno' : ¬ ∃ ch ∈ chunks, ∃ ds, ch.dataset = .ok ds ∧ ch.counts.sum = 0 ∧ ds.rows ≠ [] := by
    rw [hbad]; rintro ⟨f, h1, h2, h3⟩; exact hno f h1 h2 h3
  have hpart : ∀ ch ∈ chunks, ∃ f ∈ c.files, Holds f source ∧ ch.file = f ∧ ∃ ds, f.dataset (sectionName instr) source key = .ok ds ∧
      daskPart ch = .ok (rowsOf ch, ds.rowShape) ∧ (rowsOf ch ≠ [] ↔ ds.rows ≠ []) := by
    intro ch hm
    obtain ⟨f, h1, h2, h3, ds, w, h4, h5, -⟩ := hds ch hm
    refine ⟨f, h1, h2, h3, ds, h4, ?_, ?_⟩
    · simp only [rowsOf, daskPart, h5, sl_eq_slice]
      rw [if_neg]
      rintro ⟨z1, z2⟩
      exact hno' ⟨ch, hm, ds, h5, z1, z2⟩
    · constructor
      · intro hr he
        apply hr
        simp only [rowsOf, h5, he]
        simp [slice]
      · intro hr he
        have := hfull ch hm
        rw [he] at this
        exact hno' ⟨ch, hm, ds, h5, by simpa using this.symm, hr⟩
  obtain ⟨parts, hparts⟩ := mapE_exists_ok (f := daskPart) (l := chunks) (fun ch hm => by
    obtain ⟨f, -, -, -, ds, -, h, -⟩ := hpart ch hm
    exact ⟨_, h⟩)
  have hne : parts.isEmpty = false := by
    obtain ⟨-, f, hf, hh⟩ := mem_allSources.1 hs
    obtain ⟨ch, hm, -⟩ := hfile f hf hh
    obtain ⟨p, hp, -⟩ := mapE_ok_all hparts hm
    cases parts with
    | nil => simp at hp
    | cons _ _ => rfl
  have hdiff : ((parts.filter partFull).map Prod.snd).dedup.length > 1 ↔
      ∃ f ∈ c.files, Holds f source ∧ ∃ f' ∈ c.files, Holds f' source ∧ ∃ d d',
        f.dataset (sectionName instr) source key = .ok d ∧ f'.dataset (sectionName instr) source key = .ok d' ∧
        (d.rows ≠ [] ∧ 0 ∉ d.rowShape) ∧ (d'.rows ≠ [] ∧ 0 ∉ d'.rowShape) ∧ d.rowShape ≠ d'.rowShape := by
    have hin : ∀ sh, sh ∈ (parts.filter partFull).map Prod.snd ↔ ∃ f ∈ c.files, Holds f source ∧ ∃ d,
        f.dataset (sectionName instr) source key = .ok d ∧ (d.rows ≠ [] ∧ 0 ∉ d.rowShape) ∧ d.rowShape = sh := by
      intro sh
      rw [List.mem_map]
      constructor
      · rintro ⟨p, hp, rfl⟩
        obtain ⟨hp1, hp2⟩ := List.mem_filter.1 hp
        obtain ⟨ch, hm, hok⟩ := (mapE_mem hparts).1 hp1
        obtain ⟨f, h1, h2, h3, ds, h4, h5, h6⟩ := hpart ch hm
        obtain rfl := Except.ok.inj (hok.symm.trans h5)
        simp only [partFull, Bool.and_eq_true, Bool.not_eq_true', List.isEmpty_eq_false_iff, List.contains_eq_mem,
          decide_eq_false_iff_not] at hp2
        exact ⟨f, h1, h2, ds, h4, ⟨h6.1 hp2.1, hp2.2⟩, rfl⟩
      · rintro ⟨f, h1, h2, d, h3, ⟨h4, h5⟩, rfl⟩
        obtain ⟨ch, hm, hcf⟩ := hfile f h1 h2
        obtain ⟨f', -, -, e, ds, g4, g5, g6⟩ := hpart ch hm
        rw [hcf] at e
        subst e
        obtain rfl := Except.ok.inj (h3.symm.trans g4)
        obtain ⟨p, hp, hok⟩ := mapE_ok_all hparts hm
        obtain rfl := Except.ok.inj (g5.symm.trans hok)
        refine ⟨_, List.mem_filter.2 ⟨hp, ?_⟩, rfl⟩
        simp only [partFull, Bool.and_eq_true, Bool.not_eq_true', List.isEmpty_eq_false_iff, List.contains_eq_mem,
          decide_eq_false_iff_not]
        exact ⟨g6.2 h4, h5⟩
    rw [dedup_length_le_one]
    constructor
    · rintro ⟨x, hx, y, hy, hxy⟩
      obtain ⟨f, h1, h2, d, h3, h4, rfl⟩ := (hin x).1 hx
      obtain ⟨f', h1', h2', d', h3', h4', rfl⟩ := (hin y).1 hy
      exact ⟨f, h1, h2, f', h1', h2', d, d', h3, h3', h4, h4', hxy⟩
    · rintro ⟨f, h1, h2, f', h1', h2', d, d', h3, h3', h4, h4', hxy⟩
      exact ⟨_, (hin _).2 ⟨f, h1, h2, d, h3, h4, rfl⟩, _, (hin _).2 ⟨f', h1', h2', d', h3', h4', rfl⟩, hxy⟩
  rw [getDaskArray_eq hch, hparts]
  simp only
  unfold daskConcat
  rw [hne]
  simp only [Bool.false_eq_true, if_false]
  by_cases hd : ((parts.filter partFull).map Prod.snd).dedup.length > 1
  · rw [if_pos hd]
    obtain ⟨f, h1, h2, f', h1', h2', d, d', h3, h3', h4, h4', hxy⟩ := hdiff.1 hd
    refine ⟨⟨?_, fun h => ?_⟩, fun e h => by simpa using h.symm⟩
    · rintro ⟨rows, h⟩; simp at h
    · exact absurd (h f h1 h2 f' h1' h2' d d' h3 h3' h4.1 h4.2 h4'.1 h4'.2) hxy
  · rw [if_neg hd]
    refine ⟨⟨fun _ => ?_, fun _ => ⟨_, rfl⟩⟩, fun e h => by simp at h⟩
    intro f h1 h2 f' h1' h2' d d' h3 h3' h4 h5 h4' h5'
    by_contra hxy
    exact hd (hdiff.2 ⟨f, h1, h2, f', h1', h2', d, d', h3, h3', ⟨h4, h5⟩, ⟨h4', h5'⟩, hxy⟩)

/-- A file with entries of another shape, with and without elements. -/
def exShape (shape : List Nat) : FileAccess Nat :=
  { exInst (ch! "b") [2, 4] [0, 1] [1, 0] [20] with
    file := { (exInst (ch! "b") [2, 4] [0, 1] [1, 0] [20]).file with
      datasets := [([ch! "INSTRUMENT", ch! "D:o", ch! "data", ch! "y"], ⟨[20], shape, 0⟩)] } }

example : (⟨[exInst (ch! "a") [1, 3] [0, 2] [2, 1] [10, 11, 12], exShape [2]], [(ch! "D:o", none)], [1, 2, 3], true⟩ : DC Nat).getDaskArray
      (ch! "D:o") (ch! "data.y") = .error .value ∧
    (⟨[exInst (ch! "a") [1, 3] [0, 2] [2, 1] [10, 11, 12], exShape [0]], [(ch! "D:o", none)], [1, 2, 3], true⟩ : DC Nat).getDaskArray
      (ch! "D:o") (ch! "data.y") = .ok [10, 11, 12, 20] := ⟨by decide, by decide⟩

/-- The hypotheses hold for two files with trains 1, 3 and 2, 4, and there are no stretches without data. -/
example : exArr.getDaskArray (ch! "D:o") (ch! "data.y") = .ok [10, 11, 12, 20] := by decide

/-- C34 is false: with a train without entries selected between two which are not, `get_dask_array` raises
ZeroDivisionError where `get_array` gives an array. -/
theorem dask_array_wrong :
    let c : DC Nat := ⟨[exInst (ch! "a") [1, 2, 3] [0, 2, 2] [2, 0, 1] [10, 11, 12],
      exInst (ch! "b") [5, 6] [0, 1] [1, 1] [13, 14]], [(ch! "D:o", none)], [1, 2, 3, 5, 6], true⟩
    c.getDaskArray (ch! "D:o") (ch! "data.y") = .ok [10, 11, 12, 13, 14] ∧
    c.selectTrains (.idList [2, 5]) = .ok { c with trainIds := [2, 5], ctxCloses := false } ∧
    { c with trainIds := [2, 5] }.getArray (ch! "D:o") (ch! "data.y") id = .ok ⟨[13], some [5], [], 0⟩ ∧
    { c with trainIds := [2, 5] }.getDaskArray (ch! "D:o") (ch! "data.y") = .error .zeroDivision := by decide

/-- Data with fewer entries than the index says: if one entry is left, `get_array` repeats it to the number of entries
expected. `get_dask_array` gives only what is there. -/
theorem dask_array_truncated_wrong :
    let c : DC Nat := ⟨[exInst (ch! "a") [1, 2] [0, 2] [2, 1] [10]], [(ch! "D:o", none)], [1, 2], true⟩
    c.getArray (ch! "D:o") (ch! "data.y") id = .ok ⟨[10, 10, 10], some [1, 1, 2], [], 0⟩ ∧
    c.getDaskArray (ch! "D:o") (ch! "data.y") = .ok [10] := by decide

end KD

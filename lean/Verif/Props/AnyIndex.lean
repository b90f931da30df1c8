/- Property C147: get_array with an index which need not be contiguous. -/
import Verif.Lemmas.AnyIndex
import Verif.Props.Arrays

set_option linter.unusedSimpArgs false

namespace KD
open Spec

variable {V W : Type}

theorem readEntries_at {f : FileAccess V} {T : List Nat} {instr : Bool} {source key : Str} (hn : f.trainIds.Nodup)
    {firsts counts : List Nat} {ds : Dataset V} (hix : f.getIndex source (groupName instr key) = .ok (firsts, counts))
    (hds : f.dataset (sectionName instr) source key = .ok ds) (hl1 : firsts.length = f.trainIds.length)
    (hl2 : counts.length = f.trainIds.length) {i0 i t a n : Nat} (hs : Stretch f T i0 i) (ht : f.trainIds[i]? = some t)
    (ha : firsts[i0]? = some a) (hcn : counts[i]? = some n) :
    readEntries f T instr source key t = slice ds.rows (a + ((counts.drop i0).take (i - i0)).sum) n := by
  have hl3 : (readStarts none (f.trainIds.map (fun t => decide (t ∈ T))) firsts counts).length = f.trainIds.length := by
    rw [readStarts_length _ _ _ _ (by simp [hl1]) (by simp [hl2])]; simp
  obtain ⟨⟨x, m⟩, h6, h7⟩ := filter_zip_unique
    (bs := (readStarts none (f.trainIds.map (fun t => decide (t ∈ T))) firsts counts).zip counts) hn ht (by simp; omega)
  have h8 := List.getElem?_zip_eq_some.1 h6
  have h9 := readStarts_stretch hl1 hl2 hs ha
  rw [h8.1] at h9
  rw [hcn] at h8
  obtain rfl := Option.some.inj h9
  obtain rfl := Option.some.inj h8.2
  unfold readEntries
  rw [hix, hds]
  simp only [indexEntries, h7, List.flatMap_cons, List.flatMap_nil, List.append_nil]

theorem get_array_reads {c : DC V} {instr : Bool} {source key : Str} {roi : V → W} {a : LArr W}
    (hc : NoConflict c.files) (hv : ∀ f ∈ c.files, Holds f source → ReadableField f c.trainIds instr source key)
    (h : c.getArray source key roi = .ok a) :
    AllLabelled a ∧
    (∀ t ∈ c.trainIds, ∀ f ∈ c.files, Holds f source → t ∈ f.trainIds →
      labelled a t = (readEntries f c.trainIds instr source key t).map roi) ∧
    (∀ t, t ∉ c.trainIds ∨ (∀ f ∈ c.files, Holds f source → t ∉ f.trainIds) → labelled a t = []) := by
  obtain ⟨hcf, chunks, hch, hrows, hlab, -, -, -⟩ := getArray_ok h
  have hs : source ∈ c.allSources := (checkField_ok.1 hcf).1
  obtain ⟨chunks', hch', hds, hflt, -⟩ := sortedChunks_any hc hv hs
  rw [hch] at hch'
  obtain rfl := Except.ok.inj hch'
  have hrows := hrows (fun ch hm => by
    obtain ⟨ds, w, h1, h2⟩ := hds ch hm
    exact (chunkOf_lab h1 h2).2.2)
  have hlen : ∀ ch ∈ chunks, (labelsOf ch).length = (rowsOf ch).length := by
    intro ch hm
    obtain ⟨ds, w, h1, h2⟩ := hds ch hm
    exact (chunkOf_lab h1 h2).2.1
  have hzip : ∀ l : List (Chunk V), (∀ ch ∈ l, (labelsOf ch).length = (rowsOf ch).length) →
      (l.flatMap labelsOf).length = (l.flatMap rowsOf).length ∧
      (l.flatMap labelsOf).zip ((l.flatMap rowsOf).map roi) = (l.flatMap lab).map (Prod.map id roi) := by
    intro l
    induction l with
    | nil => intro _; simp
    | cons ch l ih =>
      intro hl
      obtain ⟨i1, i2⟩ := ih (fun x hx => hl x (by simp [hx]))
      have h0 := hl ch (by simp)
      simp only [List.flatMap_cons, List.length_append, List.map_append]
      refine ⟨by omega, ?_⟩
      rw [List.zip_append (by simpa using h0), i2]
      congr 1
      unfold lab
      rw [List.zip_map_right]
  obtain ⟨z1, z2⟩ := hzip chunks hlen
  have hlt : ∀ t, labelled a t = (((chunks.flatMap lab).filter (fun x => x.1 = t)).map Prod.snd).map roi := by
    intro t
    unfold labelled
    rw [hrows, hlab, z2, List.filter_map, List.map_map, List.map_map]
    rfl
  refine ⟨?_, fun t ht f hf hh htf => ?_, fun t ht => ?_⟩
  · unfold AllLabelled; rw [hlab, hrows, List.length_map, z1]
  · rw [hlt, hflt, sourceIndex_flatMap hc hf hh htf]
    · simp [ht]
    · intro f' hf'; simp [readEntries_notMem hf']
  · rw [hlt, hflt]
    rw [List.flatMap_eq_nil_iff.2]
    · rfl
    · intro f hf
      rcases ht with ht | ht
      · simp [ht]
      · rw [readEntries_notMem (ht f (mem_sourceIndex.1 hf).1 (mem_sourceIndex.1 hf).2)]
        simp

/-- C147. What `get_array` gives for a train, whatever the index: in a stretch of selected trains of a file, the entries are taken one
after the other from the position of the first train of the stretch; the positions of the others are not used. -/
theorem get_array_any_index {c : DC V} {instr : Bool} {source key : Str} {roi : V → W} {a : LArr W}
    (hc : NoConflict c.files) (hv : ∀ f ∈ c.files, Holds f source → ReadableField f c.trainIds instr source key)
    (h : c.getArray source key roi = .ok a) {f : FileAccess V} (hf : f ∈ c.files) (hh : Holds f source)
    {firsts counts : List Nat} {ds : Dataset V} (hix : f.getIndex source (groupName instr key) = .ok (firsts, counts))
    (hds : f.dataset (sectionName instr) source key = .ok ds) {i0 i t first n : Nat} (hs : Stretch f c.trainIds i0 i)
    (ht : f.trainIds[i]? = some t) (ha : firsts[i0]? = some first) (hn : counts[i]? = some n) :
    labelled a t = (slice ds.rows (first + ((counts.drop i0).take (i - i0)).sum) n).map roi := by
  have hr := hv f hf hh
  obtain ⟨firsts', counts', ds', e1, e2, e3, e4, -⟩ := hr.data
  rw [hix] at e1
  obtain ⟨rfl, rfl⟩ := Prod.mk.inj (Except.ok.inj e1)
  obtain ⟨t', ht', hT⟩ := hs.2.1 i hs.1 (le_refl _)
  rw [ht] at ht'
  obtain rfl := Option.some.inj ht'
  rw [(get_array_reads hc hv h).2.1 t hT f hf hh (List.mem_of_getElem? ht), readEntries_at hr.trains hix hds e3 e4 hs ht ha hn]

theorem followsOn_readable {f : FileAccess V} {T : List Nat} {instr : Bool} {source key : Str}
    (hv : IndexedField f instr source key) (hne : f.trainIds ≠ []) (hfo : FollowsOn f T instr source key) :
    ReadableField f T instr source key := by
  obtain ⟨firsts, counts, ds, hix, hds, hl1, hl2, hb⟩ := hv.data
  refine ⟨hv.trains, hne, hv.category, firsts, counts, ds, hix, hds, hl1, hl2, ?_⟩
  intro i0 i a hs ha
  obtain ⟨k, rfl⟩ : ∃ k, i = i0 + k := ⟨i - i0, by have := hs.1; omega⟩
  have hlt : ∀ j, i0 ≤ j → j ≤ i0 + k → j < counts.length := by
    intro j h1 h2
    obtain ⟨t, ht, -⟩ := hs.2.1 j h1 h2
    have := (List.getElem?_eq_some_iff.1 ht).1
    omega
  induction k with
  | zero =>
    have hn := List.getElem?_eq_getElem (hlt i0 (le_refl _) (by omega))
    rw [show i0 + 0 + 1 - i0 = i0 + 1 - i0 by omega, take_succ_sum (le_refl _) hn]
    simp only [Nat.sub_self, List.take_zero, List.sum_nil, Nat.zero_add]
    exact hb i0 _ _ ha hn
  | succ k ih =>
    have hn := List.getElem?_eq_getElem (hlt (i0 + (k + 1)) (by omega) (le_refl _))
    rw [take_succ_sum (by omega) hn]
    by_cases h0 : counts[i0 + (k + 1)]'(hlt (i0 + (k + 1)) (by omega) (le_refl _)) = 0
    · rw [h0]
      have := ih ⟨by omega, fun j h1 h2 => hs.2.1 j h1 (by omega), hs.2.2⟩ (fun j h1 h2 => hlt j h1 (by omega))
      rw [show i0 + (k + 1) - i0 = i0 + k + 1 - i0 by omega]
      omega
    · have hfl : i0 + (k + 1) < firsts.length := by
        have := hlt (i0 + (k + 1)) (by omega) (le_refl _); omega
      have hfi := List.getElem?_eq_getElem hfl
      have := hfo firsts counts hix i0 (i0 + (k + 1)) a _ _ hs ha hfi hn h0
      have := hb _ _ _ hfi hn
      omega

/-- C147. The entries are right if, in each stretch of selected trains, those of trains with some follow on from the position of the first
train of the stretch: trains without entries may have any position in the index, unless they are the first of a stretch.
Missing: such a train at the beginning of a stretch, see `get_array_gap_wrong`. -/
theorem get_array_gaps_partial {c : DC V} {instr : Bool} {source key : Str} {roi : V → W} {a : LArr W}
    (hc : NoConflict c.files) (hv : IndexedIn c instr source key) (hne : ∀ f ∈ c.files, Holds f source → f.trainIds ≠ [])
    (hfo : ∀ f ∈ c.files, Holds f source → FollowsOn f c.trainIds instr source key)
    (h : c.getArray source key roi = .ok a) :
    AllLabelled a ∧
    (∀ t ∈ c.trainIds, ∀ f ∈ c.files, Holds f source → t ∈ f.trainIds →
      labelled a t = (fileEntries f instr source key t).map roi) ∧
    (∀ t, t ∉ c.trainIds ∨ (∀ f ∈ c.files, Holds f source → t ∉ f.trainIds) → labelled a t = []) := by
  have hr : ∀ f ∈ c.files, Holds f source → ReadableField f c.trainIds instr source key := fun f hf hh =>
    followsOn_readable (hv f hf hh) (hne f hf hh) (hfo f hf hh)
  obtain ⟨r1, r2, r3⟩ := get_array_reads hc hr h
  refine ⟨r1, fun t ht f hf hh htf => ?_, r3⟩
  obtain ⟨i, hi⟩ := List.mem_iff_getElem?.1 htf
  obtain ⟨i0, hs⟩ := stretch_exists hi ht
  obtain ⟨firsts, counts, ds, b, n, hix, hds, hb, hn, -, he⟩ := fileEntries_at (hv f hf hh) hi
  obtain ⟨u, hu, -⟩ := hs.2.1 i0 (le_refl _) hs.1
  obtain ⟨firsts', counts', ds', e1, -, e3, -⟩ := (hv f hf hh).data
  rw [hix] at e1
  obtain ⟨rfl, rfl⟩ := Prod.mk.inj (Except.ok.inj e1)
  have hlt : i0 < firsts.length := by rw [e3]; exact (List.getElem?_eq_some_iff.1 hu).1
  have ha := List.getElem?_eq_getElem hlt
  rw [get_array_any_index hc hr h hf hh hix hds hs hi ha hn, he]
  by_cases h0 : n = 0
  · subst h0; simp [slice]
  · rw [hfo f hf hh firsts counts hix i0 i _ b n hs ha hb hn h0]

theorem slice_start {rows : List V} (hn : rows.Nodup) {a b n : Nat} (h0 : n ≠ 0) (ha : a + n ≤ rows.length) (hb : b + n ≤ rows.length)
    (h : slice rows a n = slice rows b n) : a = b := by
  have e : (slice rows a n)[0]? = (slice rows b n)[0]? := by rw [h]
  have hz : 0 < n := Nat.pos_of_ne_zero h0
  unfold slice at e
  rw [List.getElem?_take_of_lt hz, List.getElem?_take_of_lt hz, List.getElem?_drop, List.getElem?_drop,
    List.getElem?_eq_getElem (by omega), List.getElem?_eq_getElem (by omega)] at e
  exact (List.Nodup.getElem_inj_iff hn).1 (by simpa using Option.some.inj e)

/-- A contiguous index is right in each stretch. -/
theorem followsOn_of_valid {f : FileAccess V} {T : List Nat} {instr : Bool} {source key : Str} (h : ValidField f instr source key) :
    FollowsOn f T instr source key := by
  intro firsts counts hix i0 i a b n hs ha hb hn _
  obtain ⟨firsts', counts', ds, e1, -, e3, e4, e5, -⟩ := h.data
  rw [hix] at e1
  obtain ⟨rfl, rfl⟩ := Prod.mk.inj (Except.ok.inj e1)
  have hle := hs.1
  clear hs hn
  obtain ⟨k, rfl⟩ : ∃ k, i = i0 + k := ⟨i - i0, by omega⟩
  clear hle
  induction k generalizing b with
  | zero =>
    rw [Nat.add_zero, ha] at hb
    obtain rfl := Option.some.inj hb
    simp
  | succ k ih =>
    have hlt : i0 + (k + 1) < firsts.length := (List.getElem?_eq_some_iff.1 hb).1
    have h1 := List.getElem?_eq_getElem (l := firsts) (i := i0 + k) (by omega)
    have h2 := List.getElem?_eq_getElem (l := counts) (i := i0 + k) (by omega)
    have h3 := ih _ h1
    have h4 := e5 (i0 + k) _ _ _ h1 h2 hb
    have h5 := take_succ_sum (i0 := i0) (by omega) h2
    rw [show i0 + k + 1 - i0 = i0 + (k + 1) - i0 by omega] at h5
    rw [h4, h3, h5]
    omega

theorem followsIn_of_valid {c : DC V} {T : List Nat} {instr : Bool} {source key : Str} (h : ValidIn c instr source key) :
    FollowsIn c T instr source key := fun f hf hh =>
  ⟨(h f hf hh).trains, (h f hf hh).someTrain, (h f hf hh).indexed, followsOn_of_valid (h f hf hh)⟩

/-- What `get_array` gives when the entries of selected trains which are next to each other follow each other. -/
theorem get_array_follows {c : DC V} {b : Bool} {s k : Str} {roi : V → W} {a : LArr W} (hc : NoConflict c.files)
    (hv : FollowsIn c c.trainIds b s k) (ha : c.getArray s k roi = .ok a) :
    AllLabelled a ∧
    (∀ t ∈ c.trainIds, ∀ f ∈ c.files, Holds f s → t ∈ f.trainIds → labelled a t = (fileEntries f b s k t).map roi) ∧
    (∀ t, t ∉ c.trainIds ∨ (∀ f ∈ c.files, Holds f s → t ∉ f.trainIds) → labelled a t = []) :=
  get_array_gaps_partial hc (fun f hf hh => (hv f hf hh).2.2.1) (fun f hf hh => (hv f hf hh).2.1) (fun f hf hh => (hv f hf hh).2.2.2) ha

/-- What is read is what the index says. -/
theorem readEntries_follows {f : FileAccess V} {T : List Nat} {instr : Bool} {source key : Str} {t : Nat}
    (hv : IndexedField f instr source key) (hfo : FollowsOn f T instr source key) (ht : t ∈ T) :
    readEntries f T instr source key t = fileEntries f instr source key t := by
  by_cases htf : t ∈ f.trainIds
  · obtain ⟨i, hi⟩ := List.mem_iff_getElem?.1 htf
    obtain ⟨i0, hs⟩ := stretch_exists hi ht
    obtain ⟨firsts, counts, ds, b, n, hix, hds, hb, hn, -, he⟩ := fileEntries_at hv hi
    obtain ⟨u, hu, -⟩ := hs.2.1 i0 (le_refl _) hs.1
    obtain ⟨firsts', counts', ds', e1, -, e3, e4, -⟩ := hv.data
    rw [hix] at e1
    obtain ⟨rfl, rfl⟩ := Prod.mk.inj (Except.ok.inj e1)
    have hlt : i0 < firsts.length := by rw [e3]; exact (List.getElem?_eq_some_iff.1 hu).1
    have ha := List.getElem?_eq_getElem hlt
    rw [readEntries_at hv.trains hix hds e3 e4 hs hi ha hn, he]
    by_cases h0 : n = 0
    · subst h0; simp [slice]
    · rw [hfo firsts counts hix i0 i _ b n hs ha hb hn h0]
  · rw [readEntries_notMem htf, fileEntries_notMem htf]

/-- C147. If the entries of each dataset are all different, the array is right exactly under this condition. -/
theorem get_array_right_iff {c : DC V} {instr : Bool} {source key : Str} {a : LArr V}
    (hc : NoConflict c.files) (hv : IndexedIn c instr source key)
    (hr : ∀ f ∈ c.files, Holds f source → ReadableField f c.trainIds instr source key)
    (hd : ∀ f ∈ c.files, Holds f source → ∀ ds, f.dataset (sectionName instr) source key = .ok ds → ds.rows.Nodup)
    (h : c.getArray source key id = .ok a) :
    (∀ t ∈ c.trainIds, ∀ f ∈ c.files, Holds f source → t ∈ f.trainIds → labelled a t = fileEntries f instr source key t) ↔
      ∀ f ∈ c.files, Holds f source → FollowsOn f c.trainIds instr source key := by
  constructor
  · intro hall f hf hh firsts counts hix i0 i first b n hs ha hb hn h0
    obtain ⟨t, ht, hT⟩ := hs.2.1 i hs.1 (le_refl _)
    obtain ⟨firsts', counts', ds, b', n', e1, hds, hb', hn', hbnd, he⟩ := fileEntries_at (hv f hf hh) ht
    rw [hix] at e1
    obtain ⟨rfl, rfl⟩ := Prod.mk.inj (Except.ok.inj e1)
    rw [hb] at hb'
    rw [hn] at hn'
    obtain rfl := Option.some.inj hb'
    obtain rfl := Option.some.inj hn'
    have e2 := hall t hT f hf hh (List.mem_of_getElem? ht)
    rw [get_array_any_index hc hr h hf hh hix hds hs ht ha hn, he, List.map_id] at e2
    obtain ⟨firsts', counts', ds', e1, e3, -, -, hbd⟩ := (hr f hf hh).data
    rw [hix] at e1
    obtain ⟨rfl, rfl⟩ := Prod.mk.inj (Except.ok.inj e1)
    rw [hds] at e3
    obtain rfl := Except.ok.inj e3
    have hbd := hbd i0 i first hs ha
    rw [take_succ_sum hs.1 hn] at hbd
    exact (slice_start (hd f hf hh ds hds) h0 (by omega) hbnd e2).symm
  · intro hfo t ht f hf hh htf
    have := (get_array_gaps_partial hc hv (fun f hf hh => (hr f hf hh).someTrain) hfo h).2.1 t ht f hf hh htf
    rwa [List.map_id] at this

/-- C147 is wrong if a stretch begins with a train without entries: train 2 has none, and its position in the index is 0. All trains
together are read right; with trains 2 and 3 only, the entries of train 1 are given for train 3. -/
theorem get_array_gap_wrong :
    let f := exInst (ch! "a") [1, 2, 3] [0, 0, 2] [2, 0, 2] [10, 11, 30, 31]
    let c : DC Nat := ⟨[f], [(ch! "D:o", none)], [1, 2, 3], true⟩
    (∃ a, c.getArray (ch! "D:o") (ch! "data.y") id = .ok a ∧ labelled a 1 = [10, 11] ∧ labelled a 2 = [] ∧ labelled a 3 = [30, 31]) ∧
    ∃ a, ({ c with trainIds := [2, 3] } : DC Nat).getArray (ch! "D:o") (ch! "data.y") id = .ok a ∧ labelled a 3 = [10, 11] ∧
      fileEntries f true (ch! "D:o") (ch! "data.y") 3 = [30, 31] := by
  refine ⟨⟨⟨[10, 11, 30, 31], some [1, 1, 3, 3], [], 0⟩, by decide⟩, ⟨⟨[10, 11], some [3, 3], [], 0⟩, by decide⟩⟩

/-- A file as in `get_array_gap_wrong`: train 2 has no entries, and its position in the index is 0. -/
def exEmptyTrain : FileAccess Nat := exInst (ch! "a") [1, 2, 3] [0, 0, 2] [2, 0, 2] [10, 11, 30, 31]

/-- With all trains it meets the hypotheses of the theorems, although the index is not contiguous. -/
theorem exEmptyTrain_follows : IndexedField exEmptyTrain true (ch! "D:o") (ch! "data.y") ∧ FollowsOn exEmptyTrain [1, 2, 3] true (ch! "D:o") (ch! "data.y") ∧
    ¬ Contiguous [0, 0, 2] [2, 0, 2] := by
  have hix : exEmptyTrain.getIndex (ch! "D:o") (groupName true (ch! "data.y")) = .ok ([0, 0, 2], [2, 0, 2]) := by decide
  refine ⟨⟨by decide, by decide, [0, 0, 2], [2, 0, 2], ⟨[10, 11, 30, 31], [], 0⟩, hix, by decide, rfl, rfl, ?_⟩, ?_, ?_⟩
  · exact inBounds_cons (by decide) (inBounds_cons (by decide) (inBounds_cons (by decide) (inBounds_nil _)))
  · intro firsts counts h i0 i a b n hs ha hb hn h0
    rw [hix] at h
    obtain ⟨rfl, rfl⟩ := Prod.mk.inj (Except.ok.inj h)
    have h00 : i0 = 0 := by
      rcases hs.2.2 with h | ⟨t, ht, hnt⟩
      · exact h
      · exact absurd (List.mem_of_getElem? ht) hnt
    subst h00
    match i with
    | 0 => simp at ha hb; subst ha hb; rfl
    | 1 => simp at hn; omega
    | 2 => simp at ha hb; subst ha hb; rfl
    | i + 3 => simp at hn
  · intro h
    have := h 0 0 2 0 rfl rfl rfl
    omega

example : ∃ a, (⟨[exEmptyTrain], [(ch! "D:o", none)], [1, 2, 3], true⟩ : DC Nat).getArray (ch! "D:o") (ch! "data.y") id = .ok a ∧
    labelled a 3 = fileEntries exEmptyTrain true (ch! "D:o") (ch! "data.y") 3 := by
  refine ⟨_, rfl, ?_⟩
  have := (get_array_gaps_partial (c := ⟨[exEmptyTrain], [(ch! "D:o", none)], [1, 2, 3], true⟩) (instr := true) (source := ch! "D:o")
    (key := ch! "data.y") (roi := id) (List.pairwise_singleton _ _)
    (fun f hf _ => by rw [List.mem_singleton.1 hf]; exact exEmptyTrain_follows.1)
    (fun f hf _ => by rw [List.mem_singleton.1 hf]; decide)
    (fun f hf _ => by rw [List.mem_singleton.1 hf]; exact exEmptyTrain_follows.2.1) rfl).2.1 3 (by decide) exEmptyTrain List.mem_cons_self (.inr (by decide))
    (by decide)
  rwa [List.map_id] at this

end KD

/- Properties C32, C33, C35: counts, series and dataframes. -/
import Verif.Lemmas.OneTrain
import Verif.Props.Iterate
import Verif.Props.AnyIndex

set_option linter.unusedSimpArgs false

namespace KD
open Spec

variable {V W : Type}

/-! ### Joining parts from different files -/

theorem sorted_parts {β : Type _} {tid : β → Nat} {h : FileAccess V → R (List β)}
    (hlab : ∀ f l x, h f = .ok l → x ∈ l → tid x ∈ f.trainIds) {c : DC V} (hc : NoConflict c.files) {source : Str}
    {sers : List (List β)} (hm : mapE h (c.sourceIndex source) = .ok sers) (key : List β → Nat) :
    (∀ x, x ∈ (sortBy key sers).flatten ↔ ∃ f ∈ c.files, Holds f source ∧ ∃ l, h f = .ok l ∧ x ∈ l) ∧
    (∀ t f l, f ∈ c.files → Holds f source → t ∈ f.trainIds → h f = .ok l →
      (sortBy key sers).flatten.filter (fun x => tid x = t) = l.filter (fun x => tid x = t)) ∧
    (sortBy key sers).flatten.Perm ((c.sourceIndex source).flatMap (fun f => match h f with | .ok l => l | .error _ => [])) := by
  have hperm : (sortBy key sers).Perm sers := List.perm_insertionSort _ _
  have hs : sers = (c.sourceIndex source).map (fun f => match h f with | .ok l => l | .error _ => []) := by
    have := mapE_ok_iff.1 hm
    generalize c.sourceIndex source = src at this
    clear hm hperm hc
    induction this with
    | nil => rfl
    | cons h1 _ ih => simp [h1, ih]
  refine ⟨fun x => ?_, fun t f l hf hh ht hl => ?_, ?_⟩
  · rw [List.mem_flatten]
    constructor
    · rintro ⟨l, hl, hx⟩
      obtain ⟨f, hf, hfl⟩ := (mapE_mem hm).1 (hperm.mem_iff.1 hl)
      exact ⟨f, (mem_sourceIndex.1 hf).1, (mem_sourceIndex.1 hf).2, l, hfl, hx⟩
    · rintro ⟨f, hf, hh, l, hfl, hx⟩
      exact ⟨l, hperm.mem_iff.2 ((mapE_mem hm).2 ⟨f, mem_sourceIndex.2 ⟨hf, hh⟩, hfl⟩), hx⟩
  · have hpw : sers.Pairwise (fun a b => a.filter (fun x => decide (tid x = t)) = [] ∨ b.filter (fun x => decide (tid x = t)) = []) := by
      rw [hs, List.pairwise_map]
      have hno : ∀ g : FileAccess V, t ∉ g.trainIds →
          (match h g with | .ok l => l | .error _ => []).filter (fun x => decide (tid x = t)) = [] := by
        intro g hg
        cases hgl : h g with
        | error e => rfl
        | ok l =>
          simp only
          rw [List.filter_eq_nil_iff]
          intro x hx hxt
          exact hg (by rw [← of_decide_eq_true hxt]; exact hlab g l x hgl hx)
      refine (sourceIndex_pairwise hc source t).imp (fun {a b} hab => ?_)
      by_cases ha : t ∈ a.trainIds
      · exact Or.inr (hno b (hab ha))
      · exact Or.inl (hno a ha)
    have e1 : (sortBy key sers).flatten.filter (fun x => decide (tid x = t)) =
        sers.flatMap (fun l => l.filter (fun x => decide (tid x = t))) := by
      rw [List.filter_flatten, ← List.flatMap_def]
      exact (flatMap_perm hperm.symm hpw).symm
    rw [e1, hs, List.flatMap_map]
    have := sourceIndex_flatMap (β := β) hc hf hh ht
      (fun f => (match h f with | .ok l => l | .error _ => []).filter (fun x => decide (tid x = t))) (by
        intro g hg
        cases hgl : h g with
        | error e => rfl
        | ok l =>
          simp only
          rw [List.filter_eq_nil_iff]
          intro x hx hxt
          exact hg (by rw [← of_decide_eq_true hxt]; exact hlab g l x hgl hx))
    rw [this, hl]
  · have := hperm.flatten
    rw [List.flatMap_def, ← hs]
    exact this

theorem zipSame_ok {α β γ : Type _} {f : α → β → γ} {a : List α} {b : List β} {l : List γ} :
    zipSame f a b = .ok l ↔ a.length = b.length ∧ l = List.zipWith f a b := by
  unfold zipSame
  split <;> simp_all [eq_comm]

theorem instr_notControl {c : DC V} {source key : Str} (hv : IndexedIn c true source key) : source ∉ c.controlSources := by
  rw [mem_controlSources]
  rintro ⟨-, g, hg, hgc⟩
  have := (hv g hg (Or.inl hgc)).category
  simp at this
  exact this.2 hgc

theorem countsOfFile_lab {c : DC V} {source key : Str} (hn : source ∉ c.controlSources) (f : FileAccess V)
    (l : List (Nat × Nat)) (x : Nat × Nat) (h : c.countsOfFile source key f = .ok l) (hx : x ∈ l) : x.1 ∈ f.trainIds := by
  unfold DC.countsOfFile at h
  rw [if_neg hn] at h
  split at h
  · simp at h
  · obtain ⟨-, rfl⟩ := zipSame_ok.1 h
    rw [← List.zip_eq_zipWith] at hx
    exact (List.of_mem_zip hx).1

/-- The counts of a file, whatever its index. -/
theorem countsOfFile_valid {c : DC V} {source key : Str} (hn : source ∉ c.controlSources) {f : FileAccess V}
    (hv : IndexedField f true source key) : ∃ l, c.countsOfFile source key f = .ok l ∧ l.map Prod.fst = f.trainIds ∧
      ∀ t n, (t, n) ∈ l ↔ t ∈ f.trainIds ∧ n = (fileEntries f true source key t).length := by
  obtain ⟨firsts, counts, ds, h1, h2, h3, h4, -⟩ := hv.data
  have hok : c.countsOfFile source key f = .ok (f.trainIds.zip counts) := by
    unfold DC.countsOfFile
    rw [if_neg hn, show f.getIndex source (partition '.' key).1 = .ok (firsts, counts) from h1]
    simp only
    rw [zipSame_ok]
    exact ⟨h4.symm, List.zip_eq_zipWith⟩
  have hcount : ∀ (pos t : Nat), f.trainIds[pos]? = some t → counts[pos]? = some (fileEntries f true source key t).length := by
    intro pos t hp
    obtain ⟨firsts', counts', ds', a, n, g1, g2, g3, g4, g5, g6⟩ := fileEntries_at hv hp
    rw [h1] at g1
    simp at g1
    rw [g6, slice_length g5, g1.2, g4]
  refine ⟨_, hok, List.map_fst_zip (by omega), fun t n => ⟨fun hm => ?_, ?_⟩⟩
  · obtain ⟨i, hi⟩ := List.mem_iff_getElem?.1 hm
    have := List.getElem?_zip_eq_some.1 hi
    refine ⟨List.mem_of_getElem? this.1, ?_⟩
    have := hcount i t this.1
    simp_all
  · rintro ⟨ht, rfl⟩
    obtain ⟨i, hi⟩ := List.mem_iff_getElem?.1 ht
    exact List.mem_of_getElem? (List.getElem?_zip_eq_some.2 ⟨hi, hcount i t hi⟩)

/-! ### C32 -/

/-- C32. For instrument data, with any index inside the data, `get_data_counts` succeeds and has, for each selected train which is in
a file with the source, one count, which is the number of its entries; and nothing else. -/
theorem get_data_counts_indexed {c : DC V} {source key : Str} (hc : NoConflict c.files) (hv : IndexedIn c true source key)
    (hne0 : ∀ f ∈ c.files, Holds f source → f.trainIds ≠ []) (ha : Available c source key) : ∃ l, c.getDataCounts source key = .ok l ∧ (l.map Prod.fst).Nodup ∧
      ∀ t n, (t, n) ∈ l ↔ t ∈ c.trainIds ∧ ∃ f ∈ c.files, Holds f source ∧ t ∈ f.trainIds ∧
        n = (fileEntries f true source key t).length := by
  have hn := instr_notControl hv
  have hval : ∀ f ∈ c.sourceIndex source, IndexedField f true source key := fun f hf =>
    hv f (mem_sourceIndex.1 hf).1 (mem_sourceIndex.1 hf).2
  obtain ⟨sers, hs⟩ := mapE_exists_ok (f := c.countsOfFile source key) (l := c.sourceIndex source) (fun f hf => by
    obtain ⟨l, h, -⟩ := countsOfFile_valid hn (hval f hf)
    exact ⟨l, h⟩)
  have hne : sers.any List.isEmpty = false := by
    rw [List.any_eq_false]
    intro l hl hemp
    obtain ⟨f, hf, hfl⟩ := (mapE_mem hs).1 hl
    obtain ⟨l', h1, h2, -⟩ := countsOfFile_valid hn (hval f hf)
    rw [hfl] at h1
    obtain rfl := Except.ok.inj h1
    rw [List.isEmpty_iff] at hemp
    subst hemp
    exact hne0 f (mem_sourceIndex.1 hf).1 (mem_sourceIndex.1 hf).2 h2.symm
  unfold DC.getDataCounts
  rw [checkField_ok.2 ha]
  simp only [hs, hne, Bool.false_eq_true, if_false]
  refine ⟨_, rfl, ?_, fun t n => ?_⟩
  · obtain ⟨-, -, h3⟩ := sorted_parts (tid := Prod.fst) (countsOfFile_lab hn) hc hs countsKey
    refine List.Nodup.sublist (List.Sublist.map _ List.filter_sublist) ?_
    rw [(h3.map Prod.fst).nodup_iff, List.map_flatMap]
    rw [List.nodup_flatMap]
    refine ⟨fun f hf => ?_, ?_⟩
    · obtain ⟨l, h1, h2, -⟩ := countsOfFile_valid hn (hval f hf)
      rw [h1]
      simp only [h2]
      exact (hval f hf).trains
    · have hcp : (c.sourceIndex source).Pairwise Compatible := List.Pairwise.sublist List.filter_sublist hc
      refine hcp.imp_of_mem (fun {f g} hf hg h => ?_)
      obtain ⟨l, h1, h2, -⟩ := countsOfFile_valid hn (hval f hf)
      obtain ⟨l', h1', h2', -⟩ := countsOfFile_valid hn (hval g hg)
      simp only [Function.onFun, h1, h1', h2, h2']
      intro t ht ht'
      exact h source t (mem_sourceIndex.1 hf).2 (mem_sourceIndex.1 hg).2 ht ht'
  · obtain ⟨h1, -, -⟩ := sorted_parts (tid := Prod.fst) (countsOfFile_lab hn) hc hs countsKey
    rw [List.mem_filter, h1]
    simp only [decide_eq_true_eq]
    constructor
    · rintro ⟨⟨f, hf, hh, l, hl, hm⟩, ht⟩
      obtain ⟨l', g1, -, g3⟩ := countsOfFile_valid hn (hv f hf hh)
      rw [hl] at g1
      obtain rfl := Except.ok.inj g1
      exact ⟨ht, f, hf, hh, (g3 t n).1 hm⟩
    · rintro ⟨ht, f, hf, hh, hm⟩
      obtain ⟨l, g1, -, g3⟩ := countsOfFile_valid hn (hv f hf hh)
      exact ⟨⟨f, hf, hh, l, g1, (g3 t n).2 hm⟩, ht⟩

/-- C32. The same for valid instrument data. -/
theorem get_data_counts_exact {c : DC V} {source key : Str} (hc : NoConflict c.files) (hv : ValidIn c true source key)
    (ha : Available c source key) : ∃ l, c.getDataCounts source key = .ok l ∧ (l.map Prod.fst).Nodup ∧
      ∀ t n, (t, n) ∈ l ↔ t ∈ c.trainIds ∧ ∃ f ∈ c.files, Holds f source ∧ t ∈ f.trainIds ∧
        n = (fileEntries f true source key t).length :=
  get_data_counts_indexed hc (fun f hf hh => (hv f hf hh).indexed) (fun f hf hh => (hv f hf hh).someTrain) ha

/-- C32. The counts are the numbers of entries which `get_array` labels with the trains, and trains without a count have
no entries there. -/
theorem get_data_counts_array {c : DC V} {source key : Str} (hc : NoConflict c.files) (hv : FollowsIn c c.trainIds true source key)
    {roi : V → W} {a : LArr W} (h : c.getArray source key roi = .ok a) : ∃ l, c.getDataCounts source key = .ok l ∧
      (∀ t n, (t, n) ∈ l → t ∈ c.trainIds ∧ n = (labelled a t).length) ∧
      ∀ t, t ∉ l.map Prod.fst → labelled a t = [] := by
  obtain ⟨l, h1, h2, h3⟩ := get_data_counts_indexed hc (fun f hf hh => (hv f hf hh).2.2.1) (fun f hf hh => (hv f hf hh).2.1)
    (checkField_ok.1 (getArray_ok h).1)
  obtain ⟨-, g2, g3⟩ := get_array_follows hc hv h
  refine ⟨l, h1, fun t n hm => ?_, fun t ht => ?_⟩
  · obtain ⟨ht, f, hf, hh, htf, rfl⟩ := (h3 t n).1 hm
    exact ⟨ht, by rw [g2 t ht f hf hh htf]; simp⟩
  · apply g3
    by_contra hno
    push Not at hno
    obtain ⟨ht', f, hf, hh, htf⟩ := hno
    exact ht (List.mem_map.2 ⟨(t, _), (h3 t _).2 ⟨ht', f, hf, hh, htf, rfl⟩, rfl⟩)

/-- For control data `get_data_counts` fails, whenever some file with the source has other trains than just train 1. -/
theorem get_data_counts_control_fails {c : DC V} {source key : Str} (hs : source ∈ c.controlSources) {f : FileAccess V}
    (hf : f ∈ c.files) (hh : Holds f source) (ht : f.trainIds ≠ [1]) : ∃ e, c.getDataCounts source key = .error e := by
  unfold DC.getDataCounts
  split
  · exact ⟨_, rfl⟩
  · have : ∃ e, mapE (c.countsOfFile source key) (c.sourceIndex source) = .error e := by
      rw [mapE_error_iff (f := c.countsOfFile source key)]
      exact ⟨f, mem_sourceIndex.2 ⟨hf, hh⟩, .value, by simp [DC.countsOfFile, hs, onesSeries, ht]⟩
    obtain ⟨e, he⟩ := this
    rw [he]
    exact ⟨_, rfl⟩

example : exTrains.getDataCounts (ch! "D:o") (ch! "data.y") = .ok [(1, 2), (3, 1), (2, 1), (4, 0)] ∧
    exTrains.getDataCounts (ch! "C") (ch! "x.value") = .error .value := ⟨by decide, by decide⟩

/-! ### C33 -/

theorem partition_group {g : Str} (hg : '.' ∉ g) (r : Str) : (partition '.' (g ++ '.' :: r)).1 = g := by
  induction g with
  | nil => simp [partition]
  | cons x g ih =>
    simp only [List.mem_cons, not_or] at hg
    simp only [List.cons_append, partition]
    rw [if_neg (fun h => hg.1 h.symm)]
    simp [ih hg.2]

theorem partition_noDot (k : Str) : '.' ∉ (partition '.' k).1 := by
  induction k with
  | nil => simp [partition]
  | cons x k ih =>
    simp only [partition]
    split
    · simp
    · next h => simp [ih, Ne.symm h]

theorem pulseIdKey_group (key : Str) : groupName true (pulseIdKey key) = groupName true key := by
  simp only [groupName, pulseIdKey, if_true]
  exact partition_group (partition_noDot key) _

theorem indexEntries_filter {rows : List V} {t : Nat} (w : List (Nat × Nat × Nat)) :
    ((w.flatMap (entry rows)).filter (fun x => x.1 = t)).map Prod.snd
      = (w.filter (fun x => x.1 = t)).flatMap (fun x => slice rows x.2.1 x.2.2) := by
  induction w with
  | nil => rfl
  | cons x w ih =>
    simp only [List.flatMap_cons, List.filter_append, List.map_append, ih, List.filter_cons]
    by_cases hx : x.1 = t
    · simp only [hx, decide_true, if_true, List.flatMap_cons]
      congr 1
      rw [List.filter_eq_self.2]
      · simp [entry, Function.comp_def]
      · intro p hp; simp [entry_fst hp, hx]
    · simp only [hx, decide_false, Bool.false_eq_true, if_false]
      rw [List.filter_eq_nil_iff.2]
      · rfl
      · intro p hp; simp [entry_fst hp, hx]

/-- Reading the whole dataset of a valid field whose index begins with the first row. -/
theorem read_all {f : FileAccess V} {instr : Bool} {source key : Str} (hv : ValidField f instr source key)
    (h0 : StartsAtZero f instr source key) : ∃ firsts counts ds, f.getIndex source (groupName instr key) = .ok (firsts, counts) ∧
      f.dataset (sectionName instr) source key = .ok ds ∧ counts.length = f.trainIds.length ∧
      (ds.rows.take (npRepeat f.trainIds counts).length).length = (npRepeat f.trainIds counts).length ∧
      ∀ t, (((npRepeat f.trainIds counts).zip (ds.rows.take (npRepeat f.trainIds counts).length)).filter
        (fun x => x.1 = t)).map Prod.snd = fileEntries f instr source key t := by
  obtain ⟨firsts, counts, ds, h1, h2, h3, h4, h5, h6⟩ := hv.data
  obtain ⟨firsts', counts', g1, g2⟩ := h0
  rw [h1] at g1
  simp at g1
  obtain ⟨rfl, rfl⟩ := g1
  obtain ⟨z1, z2, z3⟩ := zip3_maps h3 h4
  obtain ⟨r1, r2, r3⟩ := contiguous_read ds.rows (f.trainIds.zip (firsts.zip counts)) 0 (by
    left
    rw [← List.head?_map, z2, g2]) (zip3_chain h3 h4 h5) (fun x hx => zip3_bound h6 hx)
  rw [z1, z3] at r1 r3
  rw [z3] at r2
  have e : slice ds.rows 0 counts.sum = ds.rows.take counts.sum := by simp [slice]
  rw [e] at r1 r2
  refine ⟨firsts, counts, ds, h1, h2, h4, by rw [r3, r2], fun t => ?_⟩
  rw [r3, r1, indexEntries_filter]
  unfold fileEntries
  rw [h1, h2]
  rfl

theorem filter_zip_length {ids : List Nat} {vs : List V} (h : vs.length = ids.length) (t : Nat) :
    (((ids.zip vs).filter (fun x => x.1 = t)).map Prod.snd).length = ids.count t := by
  induction ids generalizing vs with
  | nil => simp
  | cons x ids ih =>
    cases vs with
    | nil => simp at h
    | cons v vs =>
      have := ih (vs := vs) (by simpa using h)
      simp only [List.zip_cons_cons, List.filter_cons, List.count_cons]
      by_cases hx : x = t
      · simp [hx]; simpa using this
      · simp [hx]; simpa using this

theorem zipWith_plain (ids : List Nat) (vs : List V) (t : Nat) :
    ((List.zipWith (fun t v => (⟨t, none, v⟩ : SeriesRow V)) ids vs).filter (fun r => r.tid = t)).map SeriesRow.val =
      ((ids.zip vs).filter (fun x => x.1 = t)).map Prod.snd := by
  induction ids generalizing vs with
  | nil => simp
  | cons x ids ih =>
    cases vs with
    | nil => simp
    | cons v vs =>
      simp only [List.zipWith_cons_cons, List.zip_cons_cons, List.filter_cons]
      by_cases hx : x = t
      · simp [hx, ih vs]
      · simp [hx, ih vs]

theorem zipWith_pulses (ids : List Nat) : ∀ (ps vs : List V) (t : Nat), ps.length = ids.length → vs.length = ids.length →
    ((List.zipWith (fun (tp : Nat × V) v => (⟨tp.1, some tp.2, v⟩ : SeriesRow V)) (List.zipWith (fun t p => (t, p)) ids ps) vs).filter
      (fun r => r.tid = t)).map SeriesRow.val = ((ids.zip vs).filter (fun x => x.1 = t)).map Prod.snd ∧
    ((List.zipWith (fun (tp : Nat × V) v => (⟨tp.1, some tp.2, v⟩ : SeriesRow V)) (List.zipWith (fun t p => (t, p)) ids ps) vs).filter
      (fun r => r.tid = t)).map SeriesRow.pulse = (((ids.zip ps).filter (fun x => x.1 = t)).map Prod.snd).map some := by
  induction ids with
  | nil => intro ps vs t _ _; simp
  | cons x ids ih =>
    intro ps vs t h1 h2
    cases ps with
    | nil => simp at h1
    | cons p ps =>
      cases vs with
      | nil => simp at h2
      | cons v vs =>
        obtain ⟨i1, i2⟩ := ih ps vs t (by simpa using h1) (by simpa using h2)
        simp only [List.zipWith_cons_cons, List.zip_cons_cons, List.filter_cons]
        by_cases hx : x = t
        · simp only [hx, decide_true, if_true, List.map_cons, i1, i2]; exact ⟨trivial, trivial⟩
        · simp only [hx, decide_false, Bool.false_eq_true, if_false, i1, i2]; exact ⟨trivial, trivial⟩

/-- What the series of one file should be. -/
def SeriesOf (f : FileAccess V) (instr : Bool) (source key : Str) (l : List (SeriesRow V)) : Prop :=
  (∀ t, (l.filter (fun r => r.tid = t)).map SeriesRow.val = fileEntries f instr source key t) ∧
  ((¬ Several f instr source key ∧ ∀ r ∈ l, r.pulse = none) ∨
   (Several f instr source key ∧ instr = true ∧
    ∀ t, (l.filter (fun r => r.tid = t)).map SeriesRow.pulse = (fileEntries f true source (pulseIdKey key) t).map some))

/-- The conditions for reading a field as a series: valid, with the index beginning with the first row; control data with
one entry per train; pulse IDs beside instrument data with several entries for some train. -/
structure SeriesField (f : FileAccess V) (instr : Bool) (source key : Str) : Prop where
  valid : ValidField f instr source key
  start : StartsAtZero f instr source key
  single : instr = false → OnePerTrain f source
  pulses : instr = true → Several f instr source key → ValidField f true source (pulseIdKey key)

theorem npRepeat_ones {α : Type _} (l : List α) : npRepeat l (List.replicate l.length 1) = l := by
  induction l with
  | nil => rfl
  | cons a l ih => simp [npRepeat, List.replicate_succ, ih]

theorem several_iff {f : FileAccess V} {instr : Bool} {source key : Str} {ids : List Nat} {vs : List V}
    (hl : vs.length = ids.length)
    (h : ∀ t, ((ids.zip vs).filter (fun x => x.1 = t)).map Prod.snd = fileEntries f instr source key t) :
    ids.Nodup ↔ ¬ Several f instr source key := by
  rw [List.nodup_iff_count_le_one]
  unfold Several
  push Not
  refine forall_congr' (fun t => ?_)
  rw [← h t, filter_zip_length hl]

theorem plainData_ok {ds : Dataset V} {rows : List V} : plainData ds = .ok rows ↔ ds.rowShape = [] ∧ rows = ds.rows := by
  unfold plainData
  split
  · next h => simp [h, eq_comm]
  · next h => simp [h]

theorem pulseLabels_ok {ds : Dataset V} {rows : List V} :
    pulseLabels ds = .ok rows ↔ (∃ n, ds.rowShape = [n + 1]) ∧ rows = ds.rows := by
  unfold pulseLabels
  split
  · next h => simp [h]
  · next n h => simp [h, eq_comm]
  · next h1 h2 =>
    refine ⟨fun h => by simp at h, fun ⟨⟨n, hn⟩, _⟩ => absurd hn (h2 n)⟩

theorem pulseData_ok {ds : Dataset V} {rows : List V} : pulseData ds = .ok rows ↔ ds.rowShape = [1] ∧ rows = ds.rows := by
  unfold pulseData
  split
  · next h => simp [h]
  · next h => simp [h, eq_comm]
  · next h => simp [h]
  · next h _ => exact ⟨fun h => by simp at h, fun ⟨hn, _⟩ => absurd hn h⟩

theorem seriesOfFile_valid {c : DC V} {f : FileAccess V} {instr : Bool} {source key : Str}
    (hcat : (source ∈ c.controlSources) ↔ instr = false) (hs : SeriesField f instr source key)
    (hd : OneDim f instr source key) :
    ∃ l, c.seriesOfFile source key f = .ok l ∧ SeriesOf f instr source key l := by
  obtain ⟨firsts, counts, ds, h1, h2, h3, h4, h5⟩ := read_all hs.valid hs.start
  unfold DC.seriesOfFile
  cases instr with
  | false =>
    rw [if_pos (hcat.2 rfl)]
    have h1' := hs.single rfl
    unfold OnePerTrain at h1'
    rw [show f.getIndex source (groupName false key) = f.getIndex source [] from rfl, h1'] at h1
    simp at h1
    obtain ⟨-, rfl⟩ := h1
    rw [npRepeat_ones] at h4 h5
    refine ⟨List.zipWith (fun t v => (⟨t, none, v⟩ : SeriesRow V)) f.trainIds (ds.rows.take f.trainIds.length), ?_, ?_, ?_⟩
    · unfold seriesControl
      rw [show f.dataset (ch! "CONTROL") source key = .ok ds from h2]
      simp only
      rw [plainData_ok.2 ⟨hd.1 ((several_iff h4 h5).1 (hs.valid.trains.imp (fun h => Nat.ne_of_lt h))) ds h2, rfl⟩]
      simp only [zipSame_ok]
      exact ⟨h4.symm, trivial⟩
    · intro t; rw [zipWith_plain, h5]
    · left
      refine ⟨(several_iff h4 h5).1 (hs.valid.trains.imp (fun h => Nat.ne_of_lt h)), fun r hr => ?_⟩
      obtain ⟨i, hi, rfl⟩ := List.getElem_of_mem hr
      simp
  | true =>
    rw [if_neg (fun h => by simpa using hcat.1 h)]
    unfold seriesInstrument
    simp only
    rw [show f.getIndex source (partition '.' key).1 = .ok (firsts, counts) from h1]
    simp only
    rw [show expandTrainIds counts f.trainIds = npRepeat f.trainIds counts from rfl]
    rw [show f.dataset (ch! "INSTRUMENT") source key = .ok ds from h2]
    simp only
    by_cases hn : (npRepeat f.trainIds counts).Nodup
    · rw [if_pos hn, plainData_ok.2 ⟨hd.1 ((several_iff h4 h5).1 hn) ds h2, rfl⟩]
      refine ⟨_, zipSame_ok.2 ⟨h4.symm, rfl⟩, fun t => by rw [zipWith_plain, h5], Or.inl ⟨(several_iff h4 h5).1 hn, fun r hr => ?_⟩⟩
      obtain ⟨i, hi, rfl⟩ := List.getElem_of_mem hr
      simp
    · rw [if_neg hn]
      have hsev : Several f true source key := not_not.1 (fun h => hn ((several_iff h4 h5).2 h))
      have hp := hs.pulses rfl hsev
      have h0 : StartsAtZero f true source (pulseIdKey key) := by
        unfold StartsAtZero; rw [pulseIdKey_group]; exact hs.start
      obtain ⟨firsts', counts', ps, p1, p2, p3, p4, p5⟩ := read_all hp h0
      rw [pulseIdKey_group, h1] at p1
      simp at p1
      obtain ⟨-, rfl⟩ := p1
      rw [show f.dataset (ch! "INSTRUMENT") source ((partition '.' key).1 ++ ch! ".pulseId") = .ok ps from p2]
      simp only
      rw [pulseLabels_ok.2 ⟨(hd.2 hsev).2 ps p2, rfl⟩]
      simp only
      rw [zipSame_ok.2 ⟨p4.symm, rfl⟩]
      simp only
      rw [pulseData_ok.2 ⟨(hd.2 hsev).1 ds h2, rfl⟩]
      simp only
      refine ⟨_, zipSame_ok.2 ⟨by rw [List.length_zipWith, p4, h4]; simp, rfl⟩, fun t => ?_, Or.inr ⟨hsev, rfl, fun t => ?_⟩⟩
      · rw [(zipWith_pulses _ _ _ t p4 h4).1, h5]
      · rw [(zipWith_pulses _ _ _ t p4 h4).2, p5]

/-- Data which is not one-dimensional is refused. -/
theorem seriesOfFile_oneDim {c : DC V} {f : FileAccess V} {instr : Bool} {source key : Str}
    (hcat : (source ∈ c.controlSources) ↔ instr = false) (hs : SeriesField f instr source key)
    {l : List (SeriesRow V)} (h : c.seriesOfFile source key f = .ok l) : OneDim f instr source key := by
  obtain ⟨firsts, counts, ds, h1, h2, h3, h4, h5⟩ := read_all hs.valid hs.start
  unfold DC.seriesOfFile at h
  cases instr with
  | false =>
    rw [if_pos (hcat.2 rfl)] at h
    have h1' := hs.single rfl
    unfold OnePerTrain at h1'
    rw [show f.getIndex source (groupName false key) = f.getIndex source [] from rfl, h1'] at h1
    simp at h1
    obtain ⟨-, rfl⟩ := h1
    rw [npRepeat_ones] at h4 h5
    have hns := (several_iff h4 h5).1 (hs.valid.trains.imp (fun h => Nat.ne_of_lt h))
    refine ⟨fun _ d hd => ?_, fun h => absurd h hns⟩
    unfold seriesControl at h
    rw [show f.dataset (ch! "CONTROL") source key = .ok d from hd] at h
    simp only at h
    split at h
    · simp at h
    · next hp => exact (plainData_ok.1 hp).1
  | true =>
    rw [if_neg (fun h => by simpa using hcat.1 h)] at h
    unfold seriesInstrument at h
    simp only at h
    rw [show f.getIndex source (partition '.' key).1 = .ok (firsts, counts) from h1] at h
    simp only at h
    rw [show expandTrainIds counts f.trainIds = npRepeat f.trainIds counts from rfl] at h
    rw [show f.dataset (ch! "INSTRUMENT") source key = .ok ds from h2] at h
    simp only at h
    have hds : ∀ d, f.dataset (sectionName true) source key = .ok d → d = ds := by
      intro d hd; rw [h2] at hd; exact (Except.ok.inj hd).symm
    by_cases hn : (npRepeat f.trainIds counts).Nodup
    · rw [if_pos hn] at h
      refine ⟨fun _ d hd => ?_, fun hsev => absurd hsev ((several_iff h4 h5).1 hn)⟩
      rw [hds d hd]
      split at h
      · simp at h
      · next hp => exact (plainData_ok.1 hp).1
    · rw [if_neg hn] at h
      refine ⟨fun hns => absurd ((several_iff h4 h5).2 hns) hn, fun hsev => ?_⟩
      split at h
      · simp at h
      next ps hps =>
      split at h
      · simp at h
      next hl =>
      split at h
      · simp at h
      split at h
      · simp at h
      next hpd =>
      refine ⟨fun d hd => by rw [hds d hd]; exact (pulseData_ok.1 hpd).1, fun p hp => ?_⟩
      rw [show f.dataset (sectionName true) source (pulseIdKey key) = .ok ps from hps] at hp
      obtain rfl := Except.ok.inj hp
      exact (pulseLabels_ok.1 hl).1

theorem seriesOfFile_lab {c : DC V} {source key : Str} (f : FileAccess V)
    (l : List (SeriesRow V)) (x : SeriesRow V) (h : c.seriesOfFile source key f = .ok l) (hx : x ∈ l) : x.tid ∈ f.trainIds := by
  unfold DC.seriesOfFile at h
  split at h
  · unfold seriesControl at h
    split at h
    · simp at h
    split at h
    · simp at h
    · obtain ⟨-, rfl⟩ := zipSame_ok.1 h
      obtain ⟨i, hi, rfl⟩ := List.getElem_of_mem hx
      simp
  · unfold seriesInstrument at h
    simp only at h
    split at h
    · simp at h
    split at h
    · simp at h
    split at h
    · split at h
      · simp at h
      obtain ⟨-, rfl⟩ := zipSame_ok.1 h
      obtain ⟨i, hi, rfl⟩ := List.getElem_of_mem hx
      simp only [List.getElem_zipWith]
      exact npRepeat_mem (List.getElem_mem _)
    split at h
    · simp at h
    split at h
    · simp at h
    split at h
    · simp at h
    next hz =>
    split at h
    · simp at h
    · obtain ⟨-, rfl⟩ := zipSame_ok.1 hz
      obtain ⟨-, rfl⟩ := zipSame_ok.1 h
      obtain ⟨i, hi, rfl⟩ := List.getElem_of_mem hx
      simp only [List.getElem_zipWith]
      exact npRepeat_mem (List.getElem_mem _)

/-- The field can be read as a series from all files which have the source. -/
def SeriesIn (c : DC V) (instr : Bool) (source key : Str) : Prop :=
  ∀ f ∈ c.files, Holds f source → SeriesField f instr source key

theorem seriesIn_category {c : DC V} {instr : Bool} {source key : Str} (hs : SeriesIn c instr source key)
    (hm : source ∈ c.allSources) : source ∈ c.controlSources ↔ instr = false := by
  rw [mem_controlSources]
  obtain ⟨hk, f, hf, hh⟩ := mem_allSources.1 hm
  constructor
  · rintro ⟨-, g, hg, hgc⟩
    have := (hs g hg (Or.inl hgc)).valid.category
    cases instr with
    | false => rfl
    | true => simp at this; exact absurd hgc this.2
  · rintro rfl
    have := (hs f hf hh).valid.category
    simp at this
    exact ⟨hk, f, hf, this.1⟩

/-- C33. What `get_series` returns: for each selected train the entries of its file in order, and nothing for other trains;
a train of a file in which some train has several entries is labelled with the pulse IDs of the file. -/
theorem get_series_exact {c : DC V} {instr : Bool} {source key : Str} (hc : NoConflict c.files)
    (hs : SeriesIn c instr source key) {l : List (SeriesRow V)} (h : c.getSeries source key = .ok l) :
    (∀ t ∈ c.trainIds, ∀ f ∈ c.files, Holds f source → t ∈ f.trainIds →
      (l.filter (fun r => r.tid = t)).map SeriesRow.val = fileEntries f instr source key t ∧
      (Several f instr source key →
        (l.filter (fun r => r.tid = t)).map SeriesRow.pulse = (fileEntries f true source (pulseIdKey key) t).map some) ∧
      (¬ Several f instr source key → ∀ r ∈ l, r.tid = t → r.pulse = none)) ∧
    (∀ t, t ∉ c.trainIds ∨ (∀ f ∈ c.files, Holds f source → t ∉ f.trainIds) → ∀ r ∈ l, r.tid ≠ t) := by
  unfold DC.getSeries at h
  split at h
  · simp at h
  · next hcf =>
    have hm := (checkField_ok.1 hcf).1
    have hcat := seriesIn_category hs hm
    split at h
    · simp at h
    · next sers hsers =>
      split at h
      · simp at h
      split at h
      · simp at h
      obtain rfl := Except.ok.inj h
      obtain ⟨p1, p2, -⟩ := sorted_parts (tid := SeriesRow.tid) seriesOfFile_lab hc hsers seriesKey
      constructor
      · intro t ht f hf hh htf
        have hdim : OneDim f instr source key := by
          obtain ⟨l', -, hl'⟩ := mapE_ok_all hsers (mem_sourceIndex.2 ⟨hf, hh⟩)
          exact seriesOfFile_oneDim hcat (hs f hf hh) hl'
        obtain ⟨lf, hlf, hof⟩ := seriesOfFile_valid hcat (hs f hf hh) hdim
        have e : ((sortBy seriesKey sers).flatten.filter (fun r => decide (r.tid ∈ c.trainIds))).filter (fun r => decide (r.tid = t)) =
            lf.filter (fun r => decide (r.tid = t)) := by
          rw [← p2 t f lf hf hh htf hlf, List.filter_filter]
          apply List.filter_congr
          intro r _
          by_cases hr : r.tid = t
          · simp [hr, ht]
          · simp [hr]
        rw [e]
        refine ⟨hof.1 t, fun hsev => ?_, fun hns r hr hrt => ?_⟩
        · rcases hof.2 with ⟨hn, -⟩ | ⟨-, -, hp⟩
          · exact absurd hsev hn
          · exact hp t
        · have hr' : r ∈ lf.filter (fun r => decide (r.tid = t)) := by
            rw [← e, List.mem_filter]; exact ⟨hr, by simp [hrt]⟩
          rcases hof.2 with ⟨-, hn⟩ | ⟨hn, -, -⟩
          · exact hn r (List.mem_filter.1 hr').1
          · exact absurd hn hns
      · rintro t ht r hr rfl
        rw [List.mem_filter, p1] at hr
        obtain ⟨⟨f, hf, hh, lf, hlf, hrf⟩, hsel⟩ := hr
        rcases ht with ht | ht
        · exact ht (of_decide_eq_true hsel)
        · exact ht f hf hh (seriesOfFile_lab f lf r hlf hrf)

/-- C33. `get_series` refuses data which is not one-dimensional: if it succeeds, then in all files with the source the data
has one dimension, or, in a file in which some train has several entries, a second dimension of size 1. -/
theorem get_series_one_dim {c : DC V} {instr : Bool} {source key : Str}
    (hs : SeriesIn c instr source key) {l : List (SeriesRow V)} (h : c.getSeries source key = .ok l) :
    ∀ f ∈ c.files, Holds f source → OneDim f instr source key := by
  unfold DC.getSeries at h
  split at h
  · simp at h
  · next hcf =>
    have hcat := seriesIn_category hs (checkField_ok.1 hcf).1
    split at h
    · simp at h
    · next sers hsers =>
      intro f hf hh
      obtain ⟨l', -, hl'⟩ := mapE_ok_all hsers (mem_sourceIndex.2 ⟨hf, hh⟩)
      exact seriesOfFile_oneDim hcat (hs f hf hh) hl'

/-- C33. `get_series` succeeds for such a field exactly when its data is one-dimensional, all the files with the source have an
entry, and either all of them have a train with several entries, or none. -/
theorem get_series_succeeds {c : DC V} {instr : Bool} {source key : Str}
    (hs : SeriesIn c instr source key) (ha : Available c source key) :
    (∃ l, c.getSeries source key = .ok l) ↔
      (∀ f ∈ c.files, Holds f source → OneDim f instr source key) ∧
      (∀ f ∈ c.files, Holds f source → SomeEntry f instr source key) ∧
      ((∀ f ∈ c.files, Holds f source → Several f instr source key) ∨
       ∀ f ∈ c.files, Holds f source → ¬ Several f instr source key) := by
  have hcat := seriesIn_category hs ha.1
  by_cases hod : ∀ f ∈ c.files, Holds f source → OneDim f instr source key
  swap
  · exact ⟨fun ⟨l, hl⟩ => absurd (get_series_one_dim hs hl) hod, fun h => absurd h.1 hod⟩
  have hval : ∀ f ∈ c.sourceIndex source, SeriesField f instr source key := fun f hf =>
    hs f (mem_sourceIndex.1 hf).1 (mem_sourceIndex.1 hf).2
  obtain ⟨sers, hsers⟩ := mapE_exists_ok (f := c.seriesOfFile source key) (l := c.sourceIndex source) (fun f hf => by
    obtain ⟨l, h, -⟩ := seriesOfFile_valid hcat (hval f hf)
      (hod f (mem_sourceIndex.1 hf).1 (mem_sourceIndex.1 hf).2)
    exact ⟨l, h⟩)
  -- the series of a file
  have hpart : ∀ f ∈ c.files, Holds f source → ∃ l ∈ sers, SeriesOf f instr source key l := by
    intro f hf hh
    obtain ⟨l, hl, ho⟩ := seriesOfFile_valid hcat (hs f hf hh) (hod f hf hh)
    exact ⟨l, (mapE_mem hsers).2 ⟨f, mem_sourceIndex.2 ⟨hf, hh⟩, hl⟩, ho⟩
  have hpart' : ∀ l ∈ sers, ∃ f ∈ c.files, Holds f source ∧ SeriesOf f instr source key l := by
    intro l hl
    obtain ⟨f, hf, hfl⟩ := (mapE_mem hsers).1 hl
    obtain ⟨l', hl', ho⟩ := seriesOfFile_valid hcat (hval f hf)
      (hod f (mem_sourceIndex.1 hf).1 (mem_sourceIndex.1 hf).2)
    rw [hfl] at hl'
    obtain rfl := Except.ok.inj hl'
    exact ⟨f, (mem_sourceIndex.1 hf).1, (mem_sourceIndex.1 hf).2, ho⟩
  have hempty : ∀ (f : FileAccess V) l, SeriesOf f instr source key l → (l = [] ↔ ¬ SomeEntry f instr source key) := by
    intro f l ho
    unfold SomeEntry
    push Not
    constructor
    · rintro rfl t; rw [← ho.1 t]; rfl
    · intro h
      rw [List.eq_nil_iff_forall_not_mem]
      intro r hr
      have := ho.1 r.tid
      rw [h r.tid, List.map_eq_nil_iff, List.filter_eq_nil_iff] at this
      exact this r hr (by simp)
  have hsome : ∀ (f : FileAccess V) l, SeriesOf f instr source key l → (l.any (fun r => r.pulse.isSome) = true ↔ Several f instr source key) := by
    intro f l ho
    rw [List.any_eq_true]
    constructor
    · rintro ⟨r, hr, hp⟩
      rcases ho.2 with ⟨-, hn⟩ | ⟨hsv, -⟩
      · rw [hn r hr] at hp; simp at hp
      · exact hsv
    · intro hsv
      rcases ho.2 with ⟨hn, -⟩ | ⟨-, -, hp⟩
      · exact absurd hsv hn
      · obtain ⟨t, ht⟩ := hsv
        have h1 := ho.1 t
        have h2 := hp t
        cases hl : l.filter (fun r => decide (r.tid = t)) with
        | nil => rw [hl] at h1; rw [← h1] at ht; simp at ht
        | cons r rs =>
          have hr : r ∈ l := (List.mem_filter.1 (hl ▸ List.mem_cons_self : r ∈ l.filter (fun r => decide (r.tid = t)))).1
          refine ⟨r, hr, ?_⟩
          rw [hl] at h2
          cases hfe : fileEntries f true source (pulseIdKey key) t with
          | nil => rw [hfe] at h2; simp at h2
          | cons p ps => rw [hfe] at h2; simp at h2; simp [h2.1]
  have hnone : ∀ (f : FileAccess V) l, SeriesOf f instr source key l → (l.any (fun r => r.pulse.isNone) = true ↔
      SomeEntry f instr source key ∧ ¬ Several f instr source key) := by
    intro f l ho
    rw [List.any_eq_true]
    constructor
    · rintro ⟨r, hr, hp⟩
      refine ⟨?_, fun hsv => ?_⟩
      · by_contra hne
        rw [(hempty f l ho).2 hne] at hr; simp at hr
      · rcases ho.2 with ⟨hn, -⟩ | ⟨-, -, hpp⟩
        · exact hn hsv
        · have h2 := hpp r.tid
          have hr' : r ∈ l.filter (fun r' => decide (r'.tid = r.tid)) := List.mem_filter.2 ⟨hr, by simp⟩
          have : r.pulse ∈ (l.filter (fun r' => decide (r'.tid = r.tid))).map SeriesRow.pulse := List.mem_map_of_mem hr'
          rw [h2, List.mem_map] at this
          obtain ⟨p, -, hpe⟩ := this
          rw [← hpe] at hp; simp at hp
    · rintro ⟨hse, hns⟩
      rcases ho.2 with ⟨-, hn⟩ | ⟨hsv, -⟩
      · cases l with
        | nil => exact absurd hse ((hempty f [] ho).1 rfl)
        | cons r rs => exact ⟨r, by simp, by rw [hn r (by simp)]; rfl⟩
      · exact absurd hsv hns
  unfold DC.getSeries
  rw [checkField_ok.2 ha]
  simp only [hsers]
  by_cases hany : sers.any List.isEmpty = true
  · rw [if_pos hany]
    constructor
    · rintro ⟨l, hl⟩; simp at hl
    · rintro ⟨-, h, -⟩
      obtain ⟨l, hl, hle⟩ := List.any_eq_true.1 hany
      obtain ⟨f, hf, hh, ho⟩ := hpart' l hl
      exact absurd (h f hf hh) ((hempty f l ho).1 (List.isEmpty_iff.1 hle))
  · rw [if_neg hany]
    have hse : ∀ f ∈ c.files, Holds f source → SomeEntry f instr source key := by
      intro f hf hh
      obtain ⟨l, hl, ho⟩ := hpart f hf hh
      by_contra hn
      exact hany (List.any_eq_true.2 ⟨l, hl, List.isEmpty_iff.2 ((hempty f l ho).2 hn)⟩)
    have hmix : mixedLabels sers = true ↔ (∃ f ∈ c.files, Holds f source ∧ Several f instr source key) ∧
        ∃ f ∈ c.files, Holds f source ∧ ¬ Several f instr source key := by
      unfold mixedLabels
      rw [Bool.and_eq_true, List.any_eq_true, List.any_eq_true]
      constructor
      · rintro ⟨⟨l1, hl1, h1⟩, ⟨l2, hl2, h2⟩⟩
        obtain ⟨f1, hf1, hh1, ho1⟩ := hpart' l1 hl1
        obtain ⟨f2, hf2, hh2, ho2⟩ := hpart' l2 hl2
        exact ⟨⟨f1, hf1, hh1, (hsome f1 l1 ho1).1 h1⟩, ⟨f2, hf2, hh2, ((hnone f2 l2 ho2).1 h2).2⟩⟩
      · rintro ⟨⟨f1, hf1, hh1, h1⟩, ⟨f2, hf2, hh2, h2⟩⟩
        obtain ⟨l1, hl1, ho1⟩ := hpart f1 hf1 hh1
        obtain ⟨l2, hl2, ho2⟩ := hpart f2 hf2 hh2
        exact ⟨⟨l1, hl1, (hsome f1 l1 ho1).2 h1⟩, ⟨l2, hl2, (hnone f2 l2 ho2).2 ⟨hse f2 hf2 hh2, h2⟩⟩⟩
    by_cases hm : mixedLabels sers = true
    · rw [if_pos hm]
      obtain ⟨⟨f1, hf1, hh1, h1⟩, ⟨f2, hf2, hh2, h2⟩⟩ := hmix.1 hm
      constructor
      · rintro ⟨l, hl⟩; simp at hl
      · rintro ⟨-, -, h | h⟩
        · exact absurd (h f2 hf2 hh2) h2
        · exact absurd h1 (h f1 hf1 hh1)
    · rw [if_neg hm]
      refine ⟨fun _ => ⟨hod, hse, ?_⟩, fun _ => ⟨_, rfl⟩⟩
      by_contra hno
      push Not at hno
      obtain ⟨⟨f2, hf2, hh2, h2⟩, ⟨f1, hf1, hh1, h1⟩⟩ := hno
      exact hm (hmix.2 ⟨⟨f1, hf1, hh1, h1⟩, ⟨f2, hf2, hh2, h2⟩⟩)

/-- A file with pulse-resolved data. -/
def exPulse : FileAccess Nat :=
  { exInst (ch! "a") [1, 3] [0, 2] [2, 1] [10, 11, 12] with
    file := { (exInst (ch! "a") [1, 3] [0, 2] [2, 1] [10, 11, 12]).file with
      datasets := [([ch! "INSTRUMENT", ch! "D:o", ch! "data", ch! "y"], ⟨[10, 11, 12], [1], 0⟩),
        ([ch! "INSTRUMENT", ch! "D:o", ch! "data", ch! "pulseId"], ⟨[0, 4, 8], [1], 0⟩)] } }

theorem exPulse_valid {key : Str} {rows : List Nat} (h1 : exPulse.dataset (ch! "INSTRUMENT") (ch! "D:o") key = .ok ⟨rows, [1], 0⟩)
    (h2 : exPulse.getIndex (ch! "D:o") (groupName true key) = .ok ([0, 2], [2, 1])) (h3 : rows.length = 3) :
    ValidField exPulse true (ch! "D:o") key :=
  ⟨by decide, by decide, by decide, [0, 2], [2, 1], _, h2, h1, rfl, rfl, contiguous_cons rfl (contiguous_one _ _),
    inBounds_cons (by simp [h3]) (inBounds_cons (by simp [h3]) (inBounds_nil _))⟩

/-- A collection with this file, in which only train 1 is selected. -/
def exSeries : DC Nat := ⟨[exPulse], [(ch! "D:o", some [ch! "data.y"])], [1], true⟩

/-- The hypotheses of C33 hold for it. -/
example : NoConflict exSeries.files ∧ SeriesIn exSeries true (ch! "D:o") (ch! "data.y") ∧
    Available exSeries (ch! "D:o") (ch! "data.y") ∧
    exSeries.getSeries (ch! "D:o") (ch! "data.y") = .ok [⟨1, some 0, 10⟩, ⟨1, some 4, 11⟩] := by
  refine ⟨hasConflicts_false.1 (by decide), fun f hf _ => ?_, ⟨by decide, [ch! "data.y"], by decide, by decide⟩, by decide⟩
  obtain rfl := List.mem_singleton.1 hf
  exact ⟨exPulse_valid (rows := [10, 11, 12]) (by decide) (by decide) rfl, ⟨[0, 2], [2, 1], by decide, rfl⟩, by simp,
    fun _ _ => exPulse_valid (rows := [0, 4, 8]) (by decide) (by decide) rfl⟩

/-- Control data; a file with several entries for a train beside one without; a file without entries. -/
example : exTrains.getSeries (ch! "C") (ch! "x.value") = .ok [⟨1, none, 31⟩, ⟨2, none, 32⟩, ⟨3, none, 33⟩] ∧
    (⟨[exPulse, exInst (ch! "b") [2, 4] [0, 1] [1, 0] [20]], [(ch! "D:o", none)], [1, 2, 3], true⟩ : DC Nat).getSeries
      (ch! "D:o") (ch! "data.y") = .error .value ∧
    (⟨[exPulse, exInst (ch! "b") [2, 4] [0, 0] [0, 0] []], [(ch! "D:o", none)], [1, 2, 3], true⟩ : DC Nat).getSeries
      (ch! "D:o") (ch! "data.y") = .error .index := ⟨by decide, by decide, by decide⟩

/-- The file with the single-pulse trains of `exPulse`, without the train with two pulses: the second dimension of the data is not
dropped, and pandas refuses it. -/
def exOnePulse : FileAccess Nat :=
  { exInst (ch! "a") [1, 3] [0, 1] [1, 1] [10, 12] with
    file := { (exInst (ch! "a") [1, 3] [0, 1] [1, 1] [10, 12]).file with
      datasets := [([ch! "INSTRUMENT", ch! "D:o", ch! "data", ch! "y"], ⟨[10, 12], [1], 0⟩)] } }

example : (⟨[exOnePulse], [(ch! "D:o", none)], [1, 3], true⟩ : DC Nat).getSeries (ch! "D:o") (ch! "data.y") =
    .error .generic := by decide

/-! ### C35 -/

/-- The name of a column: `source/key`, without a trailing `.value`. -/
def IsColumnName (source key name : Str) : Prop :=
  (∃ k, key = k ++ ch! ".value" ∧ name = source ++ ch! "/" ++ k) ∨
  ((¬ ∃ k, key = k ++ ch! ".value") ∧ name = source ++ ch! "/" ++ key)

theorem seriesName_spec (source key : Str) : IsColumnName source key (seriesName source key) := by
  unfold seriesName IsColumnName endsWith
  simp only
  by_cases h : (ch! ".value").isSuffixOf (source ++ '/' :: key) = true
  · rw [if_pos h]
    left
    obtain ⟨p, hp⟩ := List.isSuffixOf_iff_suffix.1 h
    have hlen : 6 ≤ key.length := by
      by_contra hlt
      have h1 : (p ++ ch! ".value").length = (source ++ '/' :: key).length := by rw [hp]
      simp only [List.length_append, List.length_cons, List.length_nil] at h1
      have h2 : (p ++ ch! ".value")[source.length]? = some '/' := by rw [hp]; simp
      rw [List.getElem?_append_right (by omega)] at h2
      have : ∀ i : Nat, (ch! ".value")[i]? ≠ some '/' := by
        intro i
        match i with
        | 0 | 1 | 2 | 3 | 4 | 5 => simp
        | i + 6 => simp
      exact this _ h2
    have hk : key = key.take (key.length - 6) ++ ch! ".value" := by
      have h1 : (source ++ '/' :: key).drop ((source ++ '/' :: key).length - 6) = ch! ".value" := by
        rw [← hp]; simp
      have h2 : (source ++ '/' :: key).length - 6 = (source ++ ['/']).length + (key.length - 6) := by simp; omega
      rw [h2, show source ++ '/' :: key = (source ++ ['/']) ++ key by simp, ← List.drop_drop, List.drop_left] at h1
      rw [← h1, List.take_append_drop]
    refine ⟨key.take (key.length - 6), hk, ?_⟩
    have h2 : (source ++ '/' :: key).length - 6 = (source ++ ['/']).length + (key.length - 6) := by simp; omega
    rw [h2, show source ++ '/' :: key = (source ++ ['/']) ++ key by simp, List.take_length_add_append]
  · rw [if_neg h]
    right
    refine ⟨?_, by simp⟩
    rintro ⟨k, rfl⟩
    exact h (List.isSuffixOf_iff_suffix.2 ⟨source ++ '/' :: k, by simp⟩)

theorem forall₂_map_left' {α β γ : Type _} {R : γ → β → Prop} {g : α → γ} {l : List α} {r : List β}
    (h : List.Forall₂ (fun a b => R (g a) b) l r) : List.Forall₂ R (l.map g) r := by
  induction h with
  | nil => exact List.Forall₂.nil
  | cons h _ ih => exact List.Forall₂.cons h ih

theorem forall₂_append' {α β : Type _} {R : α → β → Prop} {a b : List α} {c d : List β}
    (h1 : List.Forall₂ R a c) (h2 : List.Forall₂ R b d) : List.Forall₂ R (a ++ b) (c ++ d) := by
  induction h1 with
  | nil => exact h2
  | cons h _ ih => exact List.Forall₂.cons h ih

theorem timestamp_cond {ts : Bool} {k : Str} :
    (ts || !(endsWith k (ch! ".timestamp"))) = true ↔ (ts = true ∨ ¬ ∃ p, k = p ++ ch! ".timestamp") := by
  rw [Bool.or_eq_true]
  refine or_congr Iff.rfl ?_
  rw [Bool.not_eq_true', ← Bool.not_eq_true, endsWith, List.isSuffixOf_iff_suffix]
  exact not_congr ⟨fun ⟨p, hp⟩ => ⟨p, hp.symm⟩, fun ⟨p, hp⟩ => ⟨p, hp.symm⟩⟩

/-- C35. The columns of `get_dataframe`: one for each available source and key, leaving out the keys ending in
`.timestamp` unless asked for, each with the series of that key and the right name. -/
theorem get_dataframe_columns {c : DC V} {ts : Bool} {cols : List (Str × List (SeriesRow V))}
    (h : c.getDataframe ts = .ok cols) : cols ≠ [] ∧ ∃ pairs : List (Str × Str), pairs.Nodup ∧
      (∀ s k, (s, k) ∈ pairs ↔ Available c s k ∧ (ts = true ∨ ¬ ∃ p, k = p ++ ch! ".timestamp")) ∧
      List.Forall₂ (fun p col => IsColumnName p.1 p.2 col.1 ∧ c.getSeries p.1 p.2 = .ok col.2) pairs cols := by
  unfold DC.getDataframe at h
  split at h
  · simp at h
  · next parts hparts =>
    split at h
    · simp at h
    · next hne =>
      obtain rfl := Except.ok.inj h
      refine ⟨fun h => hne (by rw [h]; rfl), ?_⟩
      have hall := mapE_ok_iff.1 hparts
      -- for each source, the list of its pairs
      have key : ∀ (ss : List Str), ss.Nodup → (∀ s ∈ ss, s ∈ c.allSources) → ∀ parts,
          List.Forall₂ (fun a b => c.columnsOf ts a = .ok b) ss parts →
          ∃ pairs : List (Str × Str), pairs.Nodup ∧
            (∀ s k, (s, k) ∈ pairs ↔ s ∈ ss ∧ Available c s k ∧ (ts = true ∨ ¬ ∃ p, k = p ++ ch! ".timestamp")) ∧
            List.Forall₂ (fun p col => IsColumnName p.1 p.2 col.1 ∧ c.getSeries p.1 p.2 = .ok col.2) pairs parts.flatten := by
        intro ss
        induction ss with
        | nil =>
          intro _ _ parts hp
          cases hp
          exact ⟨[], by simp, by simp, by simp⟩
        | cons s ss ih =>
          intro hn hsrc parts hp
          rw [List.nodup_cons] at hn
          cases hp with
          | cons h1 h2 =>
            rename_i cs parts
            obtain ⟨pairs, p1, p2, p3⟩ := ih hn.2 (fun s hs => hsrc s (by simp [hs])) parts h2
            have hsa := hsrc s (by simp)
            unfold DC.columnsOf at h1
            split at h1
            · simp at h1
            · next ks hks =>
              have hkn : ks.Nodup := keysForSource_nodup hks
              have hcols := mapE_ok_iff.1 h1
              refine ⟨(ks.filter (fun key => ts || !(endsWith key (ch! ".timestamp")))).map (fun k => (s, k)) ++ pairs, ?_, ?_, ?_⟩
              · rw [List.nodup_append]
                refine ⟨(hkn.filter _).map (fun a b h => (Prod.mk.inj h).2), p1, ?_⟩
                rintro ⟨s1, k1⟩ hx ⟨s2, k2⟩ hy he
                obtain ⟨k', -, hk'⟩ := List.mem_map.1 hx
                have := ((p2 s2 k2).1 hy).1
                rw [← he] at hy
                have hs1 := ((p2 _ _).1 hy).1
                rw [← (Prod.mk.inj hk').1] at hs1
                exact hn.1 hs1
              · intro s' k
                rw [List.mem_append, List.mem_map, p2]
                constructor
                · rintro (⟨k', hk', he⟩ | ⟨h1, h2⟩)
                  · obtain ⟨rfl, rfl⟩ := Prod.mk.inj he
                    rw [List.mem_filter] at hk'
                    refine ⟨by simp, (available_keys hsa hks).1 hk'.1, ?_⟩
                    exact timestamp_cond.1 hk'.2
                  · exact ⟨by simp [h1], h2⟩
                · rintro ⟨h1, h2, h3⟩
                  rcases List.mem_cons.1 h1 with rfl | h1
                  · left
                    refine ⟨k, List.mem_filter.2 ⟨(available_keys hsa hks).2 h2, timestamp_cond.2 h3⟩, rfl⟩
                  · exact Or.inr ⟨h1, h2, h3⟩
              · rw [List.flatten_cons]
                refine forall₂_append' (forall₂_map_left' (hcols.imp (fun k col hcol => ?_))) p3
                unfold DC.column at hcol
                split at hcol
                · simp at hcol
                · next hser =>
                  obtain rfl := Except.ok.inj hcol
                  exact ⟨seriesName_spec s k, hser⟩
      obtain ⟨pairs, p1, p2, p3⟩ := key c.allSources (List.nodup_dedup _) (fun s h => h) parts hall
      exact ⟨pairs, p1, fun s k => by rw [p2]; exact ⟨fun h => h.2, fun h => ⟨h.1.1, h⟩⟩, p3⟩

/-- C35. `get_dataframe` succeeds when there is a column and all of them can be read as series. -/
theorem get_dataframe_succeeds {c : DC V} {ts : Bool} (hk : KeysReadable c)
    (hser : ∀ s k, Available c s k → (ts = true ∨ ¬ ∃ p, k = p ++ ch! ".timestamp") → ∃ l, c.getSeries s k = .ok l)
    (hne : ∃ s k, Available c s k ∧ (ts = true ∨ ¬ ∃ p, k = p ++ ch! ".timestamp")) :
    ∃ cols, c.getDataframe ts = .ok cols := by
  have hcol : ∀ s ∈ c.allSources, ∃ b, c.columnsOf ts s = .ok b := by
    intro s hs
    obtain ⟨ks, hks⟩ := hk s hs
    unfold DC.columnsOf
    rw [hks]
    simp only
    apply mapE_exists_ok
    intro k hkm
    rw [List.mem_filter] at hkm
    obtain ⟨l, hl⟩ := hser s k ((available_keys hs hks).1 hkm.1) (timestamp_cond.1 hkm.2)
    exact ⟨_, by unfold DC.column; rw [hl]⟩
  obtain ⟨parts, hparts⟩ := mapE_exists_ok hcol
  unfold DC.getDataframe
  rw [hparts]
  simp only
  have : parts.flatten.isEmpty = false := by
    obtain ⟨s, k, ha, ht⟩ := hne
    obtain ⟨b, hb, hbc⟩ := mapE_ok_all hparts ha.1
    unfold DC.columnsOf at hbc
    obtain ⟨hs, ks, hks, hkm⟩ := ha
    rw [hks] at hbc
    simp only at hbc
    obtain ⟨col, hcm, -⟩ := mapE_ok_all hbc (List.mem_filter.2 ⟨hkm, timestamp_cond.2 ht⟩)
    rw [← Bool.not_eq_true, List.isEmpty_iff]
    intro he
    have : col ∈ parts.flatten := List.mem_flatten.2 ⟨b, hb, hcm⟩
    rw [he] at this; simp at this
  rw [this]
  exact ⟨_, rfl⟩

/-- C35. With a selection of fields, the result is that of the selected collection. -/
theorem get_dataframe_selection (c : DC V) (sel : SelArg) (ts : Bool) :
    c.getDataframeSel none ts = c.getDataframe ts ∧
    (∀ d, c.select sel = .ok d → c.getDataframeSel (some sel) ts = d.getDataframe ts) ∧
    ∀ e, c.select sel = .error e → c.getDataframeSel (some sel) ts = .error e := by
  refine ⟨rfl, fun d hd => ?_, fun e he => ?_⟩
  · simp only [DC.getDataframeSel, hd]
  · simp only [DC.getDataframeSel, he]

example : exTrains.getDataframeSel (some (.dict [(ch! "C", [ch! "x.value"])])) false =
    .ok [(ch! "C/x", [⟨1, none, 31⟩, ⟨2, none, 32⟩, ⟨3, none, 33⟩])] ∧
    exSeries.getDataframe true = .ok [(ch! "D:o/data.y", [⟨1, some 0, 10⟩, ⟨1, some 4, 11⟩])] := ⟨by decide, by decide⟩

end KD

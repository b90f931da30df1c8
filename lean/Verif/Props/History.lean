/-
C107: the data of a collection made by any history of selecting and joining is that of the original.
-/
import Verif.Spec.History
import Verif.Props.SelectData
import Verif.Props.OneTrain
import Verif.Props.Series

namespace KD

open Spec

variable {V W : Type}

theorem Spec.Narrowed.derived {c d : DC V} (h : Narrowed c d) : Derived c d := by
  induction h with
  | same => exact .same
  | select _ h ih => exact .select ih h
  | deselect _ h ih => exact .deselect ih h
  | selectTrains _ h ih => exact .selectTrains ih h

/-- Selecting only finds sources of the collection. -/
theorem expandSelection_sources {c : DC V} {arg : SelArg} {sel : Selection} (h : c.expandSelection arg = .ok sel) :
    ∀ s ∈ sel.keys, s ∈ c.selection.keys := by
  intro s hs
  cases arg with
  | other => simp [DC.expandSelection] at h; subst h; simp [Dict.keys] at hs
  | globs l =>
    obtain ⟨sels, -, rfl, hsels⟩ := expandGlobs_ok h
    obtain ⟨sel', h1, h2⟩ := mem_unionSelections_keys.1 hs
    obtain ⟨kv, hkv, rfl⟩ := List.mem_map.1 h2
    obtain ⟨p, -, hp, -⟩ := (hsels kv.1 kv.2).1 (List.mem_flatten.2 ⟨sel', h1, hkv⟩)
    exact (mem_allSources.1 hp).1
  | dict l =>
    simp only [DC.expandSelection] at h
    obtain ⟨-, h2, h3, -⟩ := expandDict_ok (by simp) h
    rcases (h3 s).1 hs with h | h
    · simp [Dict.keys] at h
    · obtain ⟨kv, hkv, rfl⟩ := List.mem_map.1 h
      exact (mem_allSources.1 (h2 kv hkv).1).1

theorem deselect_sources {c : DC V} {desel : Selection} {items : List (Option (Str × Option (List Str)))}
    (h : mapE (c.deselectItem desel) c.selection = .ok items) : ∀ s ∈ Dict.keys (items.filterMap id), s ∈ c.selection.keys := by
  intro s hs
  obtain ⟨kv, hkv, rfl⟩ := List.mem_map.1 hs
  obtain ⟨o, ho, he⟩ := List.mem_filterMap.1 hkv
  simp only [id] at he
  subst he
  obtain ⟨kv', hm, hi⟩ := (mapE_mem h).1 ho
  rw [deselectItem_some hi]
  exact List.mem_map_of_mem hm

/-- C107. Whatever was done, the files, trains and sources are among those of the original. -/
theorem derived_parts {c d : DC V} (hn : DifferentNames c) (hc : NoConflict c.files) (h : Derived c d) :
    (∀ f ∈ d.files, f ∈ c.files) ∧ (∀ t ∈ d.trainIds, t ∈ c.trainIds) ∧ (∀ s ∈ d.selection.keys, s ∈ c.selection.keys) ∧
    NoConflict d.files := by
  induction h with
  | same => exact ⟨fun _ h => h, fun _ h => h, fun _ h => h, hc⟩
  | select _ h ih =>
    obtain ⟨i1, i2, i3, i4⟩ := ih
    obtain ⟨sel, h1, h2, rfl⟩ := select_ok_iff.1 h
    exact ⟨fun f hf => i1 f (mem_filesFor.1 hf).1, i2, fun s hs => i3 s (expandSelection_sources h1 s hs), h2⟩
  | deselect _ h ih =>
    obtain ⟨i1, i2, i3, i4⟩ := ih
    obtain ⟨desel, items, h1, h2, h3, rfl⟩ := deselect_ok_iff.1 h
    exact ⟨fun f hf => i1 f (mem_filesFor.1 hf).1, i2, fun s hs => i3 s (deselect_sources h2 s hs), h3⟩
  | selectTrains _ h ih =>
    obtain ⟨i1, i2, i3, i4⟩ := ih
    obtain ⟨s1, -, s3⟩ := select_trains_files i4 h
    obtain ⟨new, -, rfl⟩ := (selectTrains_ok_iff i4).1 h
    exact ⟨fun f hf => i1 f (s1 f hf), fun t ht => i2 t (s3 t ht), i3, List.Pairwise.sublist List.filter_sublist i4⟩
  | @union d e others order _ _ ho h ih ihs =>
    have hall : ∀ x ∈ d :: others, (∀ f ∈ x.files, f ∈ c.files) ∧ (∀ t ∈ x.trainIds, t ∈ c.trainIds) ∧
        (∀ s ∈ x.selection.keys, s ∈ c.selection.keys) ∧ NoConflict x.files := by
      intro x hx
      rcases List.mem_cons.1 hx with rfl | hx
      · exact ih
      · exact ihs x hx
    have hna : NamesAgree (d :: others) := by
      intro x hx y hy f hf g hg he
      exact List.inj_on_of_nodup_map hn ((hall x hx).1 f hf) ((hall y hy).1 g hg) he
    obtain ⟨-, u2, -, u4⟩ := union_trains_files ho hna h
    obtain ⟨hnc, rfl⟩ := union_ok_iff.1 h
    refine ⟨fun f hf => ?_, fun t ht => ?_, fun s hs => ?_, hnc⟩
    · obtain ⟨x, hx, hfx⟩ := (u4 f).1 hf; exact (hall x hx).1 f hfx
    · obtain ⟨x, hx, htx⟩ := (u2 t).1 ht; exact (hall x hx).2.1 t htx
    · obtain ⟨sel, hsel, hss⟩ := mem_unionSelections_keys.1 hs
      obtain ⟨x, hx, rfl⟩ := List.mem_map.1 hsel
      exact (hall x hx).2.2.1 s hss

/-- Without joining, no file is lost which has a selected source and a selected train. -/
theorem narrowed_files {c d : DC V} (hc : NoConflict c.files) (h : Narrowed c d) :
    NoConflict d.files ∧ ∀ s ∈ d.selection.keys, ∀ t ∈ d.trainIds, ∀ f ∈ c.files, Holds f s → t ∈ f.trainIds → f ∈ d.files := by
  induction h with
  | same => exact ⟨hc, fun _ _ _ _ f hf _ _ => hf⟩
  | select _ h ih =>
    obtain ⟨sel, h1, h2, rfl⟩ := select_ok_iff.1 h
    refine ⟨h2, fun s hs t ht f hf hh htf => mem_filesFor.2 ⟨?_, s, hs, hh⟩⟩
    exact ih.2 s (expandSelection_sources h1 s hs) t ht f hf hh htf
  | deselect _ h ih =>
    obtain ⟨desel, items, h1, h2, h3, rfl⟩ := deselect_ok_iff.1 h
    refine ⟨h3, fun s hs t ht f hf hh htf => mem_filesFor.2 ⟨?_, s, hs, hh⟩⟩
    exact ih.2 s (deselect_sources h2 s hs) t ht f hf hh htf
  | selectTrains _ h ih =>
    obtain ⟨-, s2, s3⟩ := select_trains_files ih.1 h
    obtain ⟨new, -, rfl⟩ := (selectTrains_ok_iff ih.1).1 h
    refine ⟨List.Pairwise.sublist List.filter_sublist ih.1, fun s hs t ht f hf hh htf => ?_⟩
    have hf' := ih.2 s hs t (s3 t ht) f hf hh htf
    exact (s2 f hf').2 ⟨t, ht, htf⟩

theorem narrowed_covered {c d : DC V} (hn : DifferentNames c) (hc : NoConflict c.files) (h : Narrowed c d) {s : Str}
    (hs : s ∈ d.allSources) {t : Nat} (ht : t ∈ d.trainIds) : Covered d s t ↔ Covered c s t := by
  constructor
  · rintro ⟨f, hf, hh, htf⟩; exact ⟨f, (derived_parts hn hc h.derived).1 f hf, hh, htf⟩
  · rintro ⟨f, hf, hh, htf⟩
    exact ⟨f, (narrowed_files hc h).2 s (mem_allSources.1 hs).1 t ht f hf hh htf, hh, htf⟩

/-- C107. Whatever was done, `get_array` works for a field which is still available, and gives for each train what the
original gives, or nothing; nothing only if the train is not selected or the collection has no file with the source for
it. -/
theorem derived_array {c d : DC V} {instr : Bool} {source key : Str} {roi : V → W} {a : LArr W} (hn : DifferentNames c)
    (hc : NoConflict c.files) (hv : ValidIn c instr source key) (ha : c.getArray source key roi = .ok a)
    (h : Derived c d) (hav : Available d source key) :
    ∃ b, d.getArray source key roi = .ok b ∧ AllLabelled b ∧
      (∀ t ∈ d.trainIds, Covered d source t → labelled b t = labelled a t) ∧
      ∀ t, t ∉ d.trainIds ∨ ¬ Covered d source t → labelled b t = [] := by
  obtain ⟨i1, i2, -, i4⟩ := derived_parts hn hc h
  have hvd : ValidIn d instr source key := fun f hf hh => hv f (i1 f hf) hh
  have hac := checkField_ok.1 (getArray_ok ha).1
  have hmis : ¬ Mismatch d instr source key := by
    rintro ⟨f, hf, g, hg, h1, h2, x, y, h3, h4, h5⟩
    have := (get_array_refuses_mismatch roi hc hv hac).1 ⟨f, i1 f hf, g, i1 g hg, h1, h2, x, y, h3, h4, h5⟩
    rw [ha] at this
    simp at this
  obtain ⟨b, hb, -⟩ := (get_array_refuses_mismatch roi i4 hvd hav).2 hmis
  obtain ⟨-, a1, a2⟩ := get_array_exact hc hv ha
  obtain ⟨b0, b1, b2⟩ := get_array_exact i4 hvd hb
  refine ⟨b, hb, b0, fun t ht hcov => ?_, fun t ht => ?_⟩
  · obtain ⟨f, hf, hh, htf⟩ := hcov
    rw [b1 t ht f hf hh htf, a1 t (i2 t ht) f (i1 f hf) hh htf]
  · rcases ht with ht | ht
    · exact b2 t (Or.inl ht)
    · exact b2 t (Or.inr (fun f hf hh htf => ht ⟨f, hf, hh, htf⟩))

/-- C107. After any number of `select`, `deselect` and `select_trains`, `get_array` gives exactly what the original gives for
the selected trains. -/
theorem narrowed_array {c d : DC V} {instr : Bool} {source key : Str} {roi : V → W} {a : LArr W} (hn : DifferentNames c)
    (hc : NoConflict c.files) (hv : ValidIn c instr source key) (ha : c.getArray source key roi = .ok a)
    (h : Narrowed c d) (hav : Available d source key) :
    ∃ b, d.getArray source key roi = .ok b ∧ AllLabelled b ∧ (∀ t ∈ d.trainIds, labelled b t = labelled a t) ∧
      ∀ t, t ∉ d.trainIds → labelled b t = [] := by
  obtain ⟨b, h1, h2, h3, h4⟩ := derived_array hn hc hv ha h.derived hav
  refine ⟨b, h1, h2, fun t ht => ?_, fun t ht => h4 t (Or.inl ht)⟩
  by_cases hcov : Covered d source t
  · exact h3 t ht hcov
  · rw [h4 t (Or.inr hcov)]
    rw [narrowed_covered hn hc h hav.1 ht] at hcov
    exact ((get_array_exact hc hv ha).2.2 t (Or.inr (fun f hf hh htf => hcov ⟨f, hf, hh, htf⟩))).symm

/-- What `train_from_id` shows, for data in good order. -/
theorem trainFromId_shown {c : DC V} {instr : Bool} {source key : Str} {t t' : Nat} {m : Dict Str (SourceData V)}
    (hc : NoConflict c.files) (hv : IndexedIn c instr source key)
    (hone : instr = false → ∀ f ∈ c.files, Holds f source → OnePerTrain f source)
    (hav : Available c source key) (h : c.trainFromId t = .ok (t', m)) :
    (∀ f ∈ c.files, Holds f source → t ∈ f.trainIds → shownAt m source key = shown (fileEntries f instr source key t)) ∧
    (¬ Covered c source t → shownAt m source key = none) := by
  obtain ⟨-, ht, -, hk, -⟩ := train_from_id_sources h
  have hs := (hk source).2 hav.1
  obtain ⟨sd, hsd⟩ := Dict.mem_keys_iff.1 hs
  have hsh : shownAt m source key = sd.data.get? key := by unfold shownAt; rw [hsd]
  obtain ⟨hsel, f0, hf0, hh0⟩ := mem_allSources.1 hav.1
  rw [hsh]
  cases instr with
  | true =>
    have hcat := (hv f0 hf0 hh0).category
    simp at hcat
    obtain ⟨e1, e2⟩ := train_from_id_instrument hc h (mem_instrumentSources.2 ⟨hsel, f0, hf0, hcat.1⟩) hsd key
    exact ⟨fun f hf hh htf => e1 hav hv f hf hh htf, fun hcov => e2 (Or.inr hcov)⟩
  | false =>
    have hcat := (hv f0 hf0 hh0).category
    simp at hcat
    have hni : source ∉ c.instrumentSources := by
      intro hi
      obtain ⟨-, g, hg, hgi⟩ := mem_instrumentSources.1 hi
      have := (hv g hg (Or.inr hgi)).category
      simp at this
      exact this.2 hgi
    obtain ⟨e1, e2⟩ := train_from_id_control_partial hc h (mem_controlSources.2 ⟨hsel, f0, hf0, hcat.1⟩) hni hsd key
    exact ⟨fun f hf hh htf => e1 hav hv (hone rfl) f hf hh htf, fun hcov => e2 (Or.inr hcov)⟩

/-- C107. Whatever was done, `train_from_id` shows for a field what it shows for the original, or nothing; after any number of
`select`, `deselect` and `select_trains` it shows the same. -/
theorem derived_train {c d : DC V} {instr : Bool} {source key : Str} {t t1 t2 : Nat} {m m' : Dict Str (SourceData V)}
    (hn : DifferentNames c) (hc : NoConflict c.files) (hv : IndexedIn c instr source key)
    (hone : instr = false → ∀ f ∈ c.files, Holds f source → OnePerTrain f source)
    (h : Derived c d) (hac : Available c source key) (had : Available d source key)
    (hm : c.trainFromId t = .ok (t1, m)) (hm' : d.trainFromId t = .ok (t2, m')) :
    (shownAt m' source key = shownAt m source key ∨ shownAt m' source key = none) ∧
    (Narrowed c d → shownAt m' source key = shownAt m source key) := by
  obtain ⟨i1, i2, -, i4⟩ := derived_parts hn hc h
  obtain ⟨c1, c2⟩ := trainFromId_shown hc hv hone hac hm
  obtain ⟨d1, d2⟩ := trainFromId_shown i4 (fun f hf => hv f (i1 f hf)) (fun hi f hf => hone hi f (i1 f hf)) had hm'
  have ht := (train_from_id_sources hm').2.1
  by_cases hcov : Covered d source t
  · obtain ⟨f, hf, hh, htf⟩ := hcov
    have e : shownAt m' source key = shownAt m source key := by rw [d1 f hf hh htf, c1 f (i1 f hf) hh htf]
    exact ⟨Or.inl e, fun _ => e⟩
  · refine ⟨Or.inr (d2 hcov), fun hnar => ?_⟩
    rw [d2 hcov, c2]
    rwa [← narrowed_covered hn hc hnar had.1 ht]

theorem seriesRows_ext {l l' : List (SeriesRow V)} {t : Nat} (h1 : ∀ r ∈ l, r.tid = t) (h2 : ∀ r ∈ l', r.tid = t)
    (hv : l.map SeriesRow.val = l'.map SeriesRow.val) (hp : l.map SeriesRow.pulse = l'.map SeriesRow.pulse) : l = l' := by
  induction l generalizing l' with
  | nil => exact (List.map_eq_nil_iff.1 hv.symm).symm
  | cons r l ih =>
    cases l' with
    | nil => simp at hv
    | cons r' l' =>
      simp only [List.map_cons, List.cons.injEq] at hv hp
      rw [ih (fun x hx => h1 x (by simp [hx])) (fun x hx => h2 x (by simp [hx])) hv.2 hp.2]
      have e1 := h1 r (by simp)
      have e2 := h2 r' (by simp)
      obtain ⟨a, b, v⟩ := r
      obtain ⟨a', b', v'⟩ := r'
      simp only at e1 e2 hv hp
      rw [e1, e2, hv.1, hp.1]

/-- C107. Whatever was done, `get_series` gives for each train the rows the original gives, with the same pulse IDs, or nothing;
after any number of `select`, `deselect` and `select_trains` the rows of the selected trains are the same. -/
theorem derived_series {c d : DC V} {instr : Bool} {source key : Str} {l l' : List (SeriesRow V)} (hn : DifferentNames c)
    (hc : NoConflict c.files) (hs : SeriesIn c instr source key) (h : Derived c d)
    (hl : c.getSeries source key = .ok l) (hl' : d.getSeries source key = .ok l') (t : Nat) :
    (l'.filter (fun r => r.tid = t) = l.filter (fun r => r.tid = t) ∨ l'.filter (fun r => r.tid = t) = []) ∧
    (Narrowed c d → t ∈ d.trainIds → l'.filter (fun r => r.tid = t) = l.filter (fun r => r.tid = t)) := by
  obtain ⟨i1, i2, -, i4⟩ := derived_parts hn hc h
  obtain ⟨c1, c2⟩ := get_series_exact hc hs hl
  obtain ⟨d1, d2⟩ := get_series_exact i4 (fun f hf => hs f (i1 f hf)) hl'
  have had : source ∈ d.allSources := by
    unfold DC.getSeries at hl'
    split at hl'
    · simp at hl'
    · next hcf => exact (checkField_ok.1 hcf).1
  have hnil : ∀ {l : List (SeriesRow V)}, (∀ r ∈ l, r.tid ≠ t) → l.filter (fun r => r.tid = t) = [] := by
    intro l h
    rw [List.filter_eq_nil_iff]
    intro r hr; simpa using h r hr
  by_cases ht : t ∈ d.trainIds
  · by_cases hcov : Covered d source t
    · obtain ⟨f, hf, hh, htf⟩ := hcov
      obtain ⟨v1, p1, n1⟩ := c1 t (i2 t ht) f (i1 f hf) hh htf
      obtain ⟨v2, p2, n2⟩ := d1 t ht f hf hh htf
      have e : l'.filter (fun r => r.tid = t) = l.filter (fun r => r.tid = t) := by
        refine seriesRows_ext (t := t) (fun r hr => by simpa using (List.mem_filter.1 hr).2)
          (fun r hr => by simpa using (List.mem_filter.1 hr).2) (by rw [v1, v2]) ?_
        by_cases hsev : Several f instr source key
        · rw [p1 hsev, p2 hsev]
        · have e1 : ∀ {l : List (SeriesRow V)}, (∀ r ∈ l, r.tid = t → r.pulse = none) →
              (l.filter (fun r => r.tid = t)).map SeriesRow.pulse =
                List.replicate ((l.filter (fun r => r.tid = t)).map SeriesRow.val).length none := by
            intro l hl
            rw [List.eq_replicate_iff]
            refine ⟨by simp, fun b hb => ?_⟩
            obtain ⟨r, hr, rfl⟩ := List.mem_map.1 hb
            exact hl r (List.mem_filter.1 hr).1 (by simpa using (List.mem_filter.1 hr).2)
          rw [e1 (n1 hsev), e1 (n2 hsev), v1, v2]
      exact ⟨Or.inl e, fun _ _ => e⟩
    · have e' := hnil (d2 t (Or.inr (fun f hf hh htf => hcov ⟨f, hf, hh, htf⟩)))
      refine ⟨Or.inr e', fun hnar _ => ?_⟩
      rw [narrowed_covered hn hc hnar had ht] at hcov
      rw [e', hnil (c2 t (Or.inr (fun f hf hh htf => hcov ⟨f, hf, hh, htf⟩)))]
  · exact ⟨Or.inr (hnil (d2 t (Or.inl ht))), fun _ h => absurd h ht⟩

/-- C107. The counts of a collection made by any number of `select`, `deselect` and `select_trains` are those of the original for
the selected trains. -/
theorem narrowed_counts {c d : DC V} {source key : Str} (hn : DifferentNames c) (hc : NoConflict c.files)
    (hv : ValidIn c true source key) (h : Narrowed c d) (hac : Available c source key) (had : Available d source key) :
    ∃ l l', c.getDataCounts source key = .ok l ∧ d.getDataCounts source key = .ok l' ∧
      ∀ t n, (t, n) ∈ l' ↔ t ∈ d.trainIds ∧ (t, n) ∈ l := by
  obtain ⟨i1, i2, -, i4⟩ := derived_parts hn hc h.derived
  obtain ⟨l, h1, -, h2⟩ := get_data_counts_exact hc hv hac
  obtain ⟨l', h1', -, h2'⟩ := get_data_counts_exact i4 (fun f hf => hv f (i1 f hf)) had
  refine ⟨l, l', h1, h1', fun t n => ?_⟩
  rw [h2, h2']
  constructor
  · rintro ⟨ht, f, hf, hh, htf, rfl⟩
    exact ⟨ht, i2 t ht, f, i1 f hf, hh, htf, rfl⟩
  · rintro ⟨ht, -, f, hf, hh, htf, rfl⟩
    exact ⟨ht, f, (narrowed_files hc h).2 source (mem_allSources.1 had.1).1 t ht f hf hh htf, hh, htf, rfl⟩

/-- C107. A union loses no data: what one of the joined collections gives for a train, the union gives too. -/
theorem union_keeps_data {order : List (FileAccess V) → List (FileAccess V)} (ho : IsOrder order) {c d x : DC V}
    {others : List (DC V)} (hna : NamesAgree (c :: others)) (h : c.union order others = .ok d) (hx : x ∈ c :: others)
    {instr : Bool} {source key : Str} {roi : V → W} {a b : LArr W} (hcx : NoConflict x.files)
    (hv : ValidIn d instr source key) (ha : x.getArray source key roi = .ok a) (hb : d.getArray source key roi = .ok b)
    (t : Nat) : labelled a t = [] ∨ labelled b t = labelled a t := by
  obtain ⟨-, u2, -, u4⟩ := union_trains_files ho hna h
  have hvx : ValidIn x instr source key := fun f hf hh => hv f ((u4 f).2 ⟨x, hx, hf⟩) hh
  obtain ⟨hnc, hd⟩ := union_ok_iff.1 h
  have hcd : NoConflict d.files := by rw [hd]; exact hnc
  obtain ⟨-, a1, a2⟩ := get_array_exact hcx hvx ha
  obtain ⟨-, b1, b2⟩ := get_array_exact hcd hv hb
  by_cases ht : t ∈ x.trainIds
  · by_cases hcov : Covered x source t
    · obtain ⟨f, hf, hh, htf⟩ := hcov
      right
      rw [a1 t ht f hf hh htf, b1 t ((u2 t).2 ⟨x, hx, ht⟩) f ((u4 f).2 ⟨x, hx, hf⟩) hh htf]
    · exact Or.inl (a2 t (Or.inr (fun f hf hh htf => hcov ⟨f, hf, hh, htf⟩)))
  · exact Or.inl (a2 t (Or.inl ht))

/-! ### Examples -/

/-- The selections for the examples: detector data of train 1, slow data of train 2. -/
def exHistA : R (DC Nat) :=
  match exTrains.select (.globs [(ch! "D:*", ch! "*")]) with
  | .error e => .error e
  | .ok d => d.selectTrains (.idList [1])

def exHistB : R (DC Nat) :=
  match exTrains.deselect (.globs [(ch! "D:*", ch! "*")]) with
  | .error e => .error e
  | .ok d => d.selectTrains (.indexSlice (some 1) (some 2) none)

theorem exHist_narrowed {d : DC Nat} (h : exHistA = .ok d ∨ exHistB = .ok d) : Narrowed exTrains d := by
  rcases h with h | h
  · unfold exHistA at h
    split at h
    · simp at h
    · next hs => exact .selectTrains (.select .same hs) h
  · unfold exHistB at h
    split at h
    · simp at h
    · next hs => exact .selectTrains (.deselect .same hs) h

/-- The joined selections. -/
def exHistU : R (DC Nat) :=
  match exHistA, exHistB with
  | .ok a, .ok b => a.union id [b]
  | .error e, _ => .error e
  | _, .error e => .error e

theorem exHistU_derived {d : DC Nat} (h : exHistU = .ok d) : Derived exTrains d := by
  unfold exHistU at h
  split at h
  · next a b ha hb =>
    exact .union (exHist_narrowed (Or.inl ha)).derived
      (fun o ho => by obtain rfl := List.mem_singleton.1 ho; exact (exHist_narrowed (Or.inr hb)).derived) (fun _ => List.Perm.refl _) h
  · simp at h
  · simp at h

theorem exTrains_valid : DifferentNames exTrains ∧ NoConflict exTrains.files ∧
    ValidIn exTrains true (ch! "D:o") (ch! "data.y") := by
  refine ⟨by unfold DifferentNames; decide, hasConflicts_false.1 (by decide), ?_⟩
  intro f hf hh
  simp only [exTrains, List.mem_cons, List.not_mem_nil, or_false] at hf
  rcases hf with rfl | rfl | rfl
  · exact exInst_valid (by decide) (by decide) rfl rfl (contiguous_cons rfl (contiguous_one _ _))
      (inBounds_cons (by decide) (inBounds_cons (by decide) (inBounds_nil _))) (by decide) (by decide)
  · exact exInst_valid (by decide) (by decide) rfl rfl (contiguous_cons rfl (contiguous_one _ _))
      (inBounds_cons (by decide) (inBounds_cons (by decide) (inBounds_nil _))) (by decide) (by decide)
  · exact absurd hh (by unfold Holds; decide)

/-- The hypotheses hold for these histories, and what they give: the union has both sources and both trains. It has the slow data
of train 1, which is in neither part, but not the detector data of train 2, which the original has too. -/
theorem union_of_parts_gap :
    exTrains.getArray (ch! "D:o") (ch! "data.y") id = .ok ⟨[10, 11, 12, 20], some [1, 1, 3, 2], [], 0⟩ ∧
    (∃ d, exHistA = .ok d ∧ d.trainIds = [1] ∧
      d.getArray (ch! "D:o") (ch! "data.y") id = .ok ⟨[10, 11], some [1, 1], [], 0⟩) ∧
    (∃ d, exHistB = .ok d ∧ d.trainIds = [2] ∧
      d.getArray (ch! "C") (ch! "x.value") id = .ok ⟨[32], some [2], [], 0⟩) ∧
    ∃ d, exHistU = .ok d ∧ d.trainIds = [1, 2] ∧
      d.getArray (ch! "D:o") (ch! "data.y") id = .ok ⟨[10, 11], some [1, 1], [], 0⟩ ∧
      d.getArray (ch! "C") (ch! "x.value") id = .ok ⟨[31, 32], some [1, 2], [], 0⟩ := by
  refine ⟨by decide, ?_, ?_, ?_⟩
  · exact ⟨_, rfl, by decide, by decide⟩
  · exact ⟨_, rfl, by decide, by decide⟩
  · exact ⟨_, rfl, by decide, by decide, by decide⟩

end KD

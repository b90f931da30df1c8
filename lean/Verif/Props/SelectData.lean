/- Properties C22 and C17: selecting and joining do not change data. -/
import Verif.Props.OrderGaps

set_option linter.unusedSimpArgs false

namespace KD
open Spec

variable {V W : Type}

theorem pySlice_subset {α : Type _} {l r : List α} {a b s : Option Int} (h : pySlice l a b s = .ok r) : ∀ t ∈ r, t ∈ l := by
  unfold pySlice at h
  split at h
  · simp at h
  · simp at h; subst h
    intro t ht
    obtain ⟨i, -, hi⟩ := List.mem_filterMap.1 ht
    exact List.mem_of_getElem? hi

/-- Selecting trains gives only trains of the collection. -/
theorem selectTrainIds_subset {ts r : List Nat} {tr : TrainRange} (h : selectTrainIds ts tr = .ok r) :
    ∀ t ∈ r, t ∈ ts := by
  cases tr with
  | idSlice a b s =>
    simp only [selectTrainIds] at h
    split at h
    · simp at h
    split at h
    · simp at h
    exact pySlice_subset h
  | indexSlice a b s => exact pySlice_subset h
  | idList ids =>
    simp only [selectTrainIds] at h
    split at h
    · simp at h
    · simp at h; subst h
      intro t ht
      exact (List.mem_filter.1 (mem_sortedSet.1 ht)).1
  | indexList ixs =>
    simp only [selectTrainIds] at h
    split at h
    · simp at h
    · next ts' h' =>
      simp at h; subst h
      intro t ht
      obtain ⟨i, -, hi⟩ := (mapE_mem h').1 ((List.mem_insertionSort _).1 ht)
      unfold pyIndex at hi
      dsimp only at hi
      generalize (if i < 0 then i + (ts.length : Int) else i) = j at hi
      split at hi
      · simp at hi
      · exact List.mem_of_getElem? (nth_ok_iff.1 hi)
  | other => simp [selectTrainIds] at h

theorem selectTrains_ok_iff {c d : DC V} {tr : TrainRange} (hc : NoConflict c.files) :
    c.selectTrains tr = .ok d ↔ ∃ new, selectTrainIds c.trainIds tr = .ok new ∧
      d = ⟨c.files.filter (fun f => f.trainIds.any (fun t => t ∈ new)), c.selection, new, false⟩ := by
  unfold DC.selectTrains
  cases hs : selectTrainIds c.trainIds tr with
  | error e => simp
  | ok new =>
    simp only [make_ok_iff, Except.ok.injEq, exists_eq_left', Option.getD_some]
    constructor
    · rintro ⟨-, rfl⟩; rfl
    · rintro rfl
      exact ⟨List.Pairwise.sublist List.filter_sublist hc, rfl⟩

/-! ### C22 -/

/-- C22. The files dropped by `select_trains` hold none of the kept trains; the others are kept. -/
theorem select_trains_files {c d : DC V} {tr : TrainRange} (hc : NoConflict c.files) (h : c.selectTrains tr = .ok d) :
    (∀ f ∈ d.files, f ∈ c.files) ∧ (∀ f ∈ c.files, f ∈ d.files ↔ ∃ t ∈ d.trainIds, t ∈ f.trainIds) ∧
    ∀ t ∈ d.trainIds, t ∈ c.trainIds := by
  obtain ⟨new, h1, rfl⟩ := (selectTrains_ok_iff hc).1 h
  refine ⟨fun f hf => (List.mem_filter.1 hf).1, fun f hf => ?_, selectTrainIds_subset h1⟩
  simp only [List.mem_filter, hf, true_and, List.any_eq_true, decide_eq_true_eq]
  constructor
  · rintro ⟨t, h1, h2⟩; exact ⟨t, h2, h1⟩
  · rintro ⟨t, h1, h2⟩; exact ⟨t, h2, h1⟩

/-- What is available after `select_trains`: what was, if some file is left for the source. -/
theorem available_selectTrains {c d : DC V} {tr : TrainRange} (hc : NoConflict c.files) (hk : SameKeys c.files)
    (h : c.selectTrains tr = .ok d) (s k : Str) :
    Available d s k ↔ Available c s k ∧ ∃ f ∈ d.files, Holds f s := by
  obtain ⟨hsub, -, -⟩ := select_trains_files hc h
  have hsel : d.selection = c.selection := by
    obtain ⟨new, -, rfl⟩ := (selectTrains_ok_iff hc).1 h; rfl
  rw [available_iff, available_iff, hsel]
  constructor
  · rintro ⟨v, hv, ⟨rfl, f, hf, hkey⟩ | ⟨ks, rfl, hkk, f, hf, hh⟩⟩
    · obtain ⟨hf1, hf2⟩ := mem_sourceIndex.1 (List.mem_of_mem_head? hf)
      obtain ⟨g, hg, hgc, hgs⟩ := head?_sourceIndex (c := c) ⟨f, hsub f hf1, hf2⟩
      exact ⟨⟨none, hv, Or.inl ⟨rfl, g, hg, (hk f (hsub f hf1) g hgc s hf2 hgs k).1 hkey⟩⟩, f, hf1, hf2⟩
    · exact ⟨⟨_, hv, Or.inr ⟨ks, rfl, hkk, f, hsub f hf, hh⟩⟩, f, hf, hh⟩
  · rintro ⟨⟨v, hv, ⟨rfl, f, hf, hkey⟩ | ⟨ks, rfl, hkk, f, hf, hh⟩⟩, f', hf', hh'⟩
    · obtain ⟨hf1, hf2⟩ := mem_sourceIndex.1 (List.mem_of_mem_head? hf)
      obtain ⟨g, hg, hgc, hgs⟩ := head?_sourceIndex (c := d) ⟨f', hf', hh'⟩
      exact ⟨none, hv, Or.inl ⟨rfl, g, hg, (hk f hf1 g (hsub g hgc) s hf2 hgs k).1 hkey⟩⟩
    · exact ⟨_, hv, Or.inr ⟨ks, rfl, hkk, f', hf', hh'⟩⟩

/-- C22. For every train kept by `select_trains`, `get_array` gives the same entries for it as before. If no file
with the source is left, then there were no entries for the kept trains (and the source is no longer there). -/
theorem select_trains_keeps_data {c d : DC V} {tr : TrainRange} {instr : Bool} {source key : Str} {roi : V → W}
    {a : LArr W} (hc : NoConflict c.files) (hk : SameKeys c.files) (hv : FollowsIn c c.trainIds instr source key)
    (h : c.selectTrains tr = .ok d) (hvd : ∀ f ∈ d.files, Holds f source → FollowsOn f d.trainIds instr source key)
    (ha : c.getArray source key roi = .ok a) :
    (source ∈ d.allSources → ∃ b, d.getArray source key roi = .ok b ∧ ∀ t ∈ d.trainIds, labelled b t = labelled a t) ∧
    (source ∉ d.allSources → ∀ t ∈ d.trainIds, labelled a t = []) := by
  obtain ⟨hsub, hkeep, htr⟩ := select_trains_files hc h
  have hav := checkField_ok.1 (getArray_ok ha).1
  obtain ⟨-, a1, a2⟩ := get_array_follows hc hv ha
  have hcd : NoConflict d.files := by
    obtain ⟨new, -, rfl⟩ := (selectTrains_ok_iff hc).1 h
    exact List.Pairwise.sublist List.filter_sublist hc
  have hvd : FollowsIn d d.trainIds instr source key := fun f hf hh =>
    ⟨(hv f (hsub f hf) hh).1, (hv f (hsub f hf) hh).2.1, (hv f (hsub f hf) hh).2.2.1, hvd f hf hh⟩
  constructor
  · intro hs
    obtain ⟨-, f0, hf0, hh0⟩ := mem_allSources.1 hs
    have havd := (available_selectTrains hc hk h source key).2 ⟨hav, f0, hf0, hh0⟩
    have hmis : ¬ Mismatch d instr source key := by
      rintro ⟨f, hf, g, hg, h1, h2, x, y, h3, h4, h5⟩
      have := (get_array_mismatch_gaps roi hc hv hav).1
        ⟨f, hsub f hf, g, hsub g hg, h1, h2, x, y, h3, h4, h5⟩
      rw [ha] at this
      simp at this
    obtain ⟨b, hb, -⟩ := (get_array_mismatch_gaps roi hcd hvd havd).2 hmis
    obtain ⟨-, b1, b2⟩ := get_array_follows hcd hvd hb
    refine ⟨b, hb, fun t ht => ?_⟩
    by_cases hex : ∃ f ∈ c.files, Holds f source ∧ t ∈ f.trainIds
    · obtain ⟨f, hf, hh, htf⟩ := hex
      rw [a1 t (htr t ht) f hf hh htf, b1 t ht f ((hkeep f hf).2 ⟨t, ht, htf⟩) hh htf]
    · have hex : ∀ f ∈ c.files, Holds f source → t ∉ f.trainIds := fun f hf hh htf => hex ⟨f, hf, hh, htf⟩
      rw [a2 t (Or.inr hex), b2 t (Or.inr (fun f hf => hex f (hsub f hf)))]
  · intro hs t ht
    apply a2 t (Or.inr ?_)
    intro f hf hh htf
    apply hs
    have hsel : d.selection = c.selection := by
      obtain ⟨new, -, rfl⟩ := (selectTrains_ok_iff hc).1 h; rfl
    exact mem_allSources.2 ⟨hsel ▸ (mem_allSources.1 hav.1).1, f, (hkeep f hf).2 ⟨t, ht, htf⟩, hh⟩

/-- `get_array` depends only on the train IDs, the files having the source (in order), and whether it is instrument
data. -/
theorem getArray_congr {c d : DC V} {source key : Str} (roi : V → W) (h1 : d.trainIds = c.trainIds)
    (h2 : d.sourceIndex source = c.sourceIndex source)
    (h3 : source ∈ d.instrumentSources ↔ source ∈ c.instrumentSources)
    (h4 : d.checkField source key = c.checkField source key) :
    d.getArray source key roi = c.getArray source key roi := by
  have hg : d.keyGroup source key = c.keyGroup source key := by
    unfold DC.keyGroup
    by_cases h : source ∈ c.instrumentSources
    · rw [if_pos h, if_pos (h3.2 h)]
    · rw [if_neg h, if_neg (fun h' => h (h3.1 h'))]
  have hf : ∀ f, d.chunksOfFile source key f = c.chunksOfFile source key f := by
    intro f
    unfold DC.chunksOfFile
    rw [hg, h1]
  have hfd : d.findDataChunks source key = c.findDataChunks source key := by
    unfold DC.findDataChunks
    rw [h2, mapE_congr (fun f _ => hf f)]
  unfold DC.getArray
  rw [h4, hfd]

/-- C22. Selecting sources and keys does not change the array of a field available before and after. -/
theorem select_keeps_data {c d : DC V} {arg : SelArg} {source key : Str} (roi : V → W)
    (h : c.select arg = .ok d) (h1 : Available c source key) (h2 : Available d source key) :
    d.getArray source key roi = c.getArray source key roi := by
  obtain ⟨sel, -, -, rfl⟩ := select_ok_iff.1 h
  have hs := (restrict_allSources.1 h2.1).1
  have hc := (mem_allSources.1 h1.1).1
  apply getArray_congr
  · rfl
  · exact restrict_sourceIndex hs
  · rw [mem_instrumentSources, mem_instrumentSources]
    constructor
    · rintro ⟨-, f, hf, hi⟩; exact ⟨hc, f, (mem_filesFor.1 hf).1, hi⟩
    · rintro ⟨-, f, hf, hi⟩; exact ⟨hs, f, mem_filesFor.2 ⟨hf, source, hs, Or.inr hi⟩, hi⟩
  · rw [checkField_ok.2 h1, checkField_ok.2 h2]

/-- Each source is in the same category in all files having it. -/
def SameCategory (files : List (FileAccess V)) : Prop :=
  ∀ f ∈ files, ∀ g ∈ files, ∀ source, Holds f source → Holds g source →
    (source ∈ f.controlSources ↔ source ∈ g.controlSources) ∧
    (source ∈ f.instrumentSources ↔ source ∈ g.instrumentSources)

/-- C22. Selecting sources by patterns and selecting trains commute: the train IDs are the same, the same pairs are
available, and reading them gives the same arrays. -/
theorem select_commutes {c d1 e1 d2 e2 : DC V} {l : List (Str × Str)} {tr : TrainRange}
    (hc : NoConflict c.files) (hk : SameKeys c.files) (hcat : SameCategory c.files)
    (hstar : ∀ p ∈ l, p.2 = ch! "*" → ∀ s ∈ c.allSources, globMatch p.1 s = true → c.selection.get? s = some none)
    (h1 : c.select (.globs l) = .ok d1) (h2 : d1.selectTrains tr = .ok e1)
    (h3 : c.selectTrains tr = .ok d2) (h4 : d2.select (.globs l) = .ok e2) :
    e1.trainIds = e2.trainIds ∧ (∀ s k, Available e1 s k ↔ Available e2 s k) ∧
    ∀ s k, Available e1 s k → ∀ roi : V → W, e1.getArray s k roi = e2.getArray s k roi := by
  have hd1 : NoConflict d1.files := by
    obtain ⟨sel, -, h, rfl⟩ := select_ok_iff.1 h1; exact h
  have hd1s : ∀ f ∈ d1.files, f ∈ c.files := by
    obtain ⟨sel, -, -, rfl⟩ := select_ok_iff.1 h1; exact fun f hf => (mem_filesFor.1 hf).1
  have hk1 : SameKeys d1.files := fun f hf g hg => hk f (hd1s f hf) g (hd1s g hg)
  have ex1 := select_globs_exact h1 hstar
  have av1 := available_selectTrains hd1 hk1 h2
  have av2 := available_selectTrains hc hk h3
  obtain ⟨hsub2, hkeep2, -⟩ := select_trains_files hc h3
  obtain ⟨hsub1, hkeep1, -⟩ := select_trains_files hd1 h2
  have hsel2 : d2.selection = c.selection := by
    obtain ⟨new, -, rfl⟩ := (selectTrains_ok_iff hc).1 h3; rfl
  have hall2 : ∀ s, s ∈ d2.allSources → s ∈ c.allSources := by
    intro s hs
    obtain ⟨a, f, hf, hh⟩ := mem_allSources.1 hs
    exact mem_allSources.2 ⟨hsel2 ▸ a, f, hsub2 f hf, hh⟩
  have ex2 := select_globs_exact h4 (by
    intro p hp he s hs hg
    rw [hsel2]; exact hstar p hp he s (hall2 s hs) hg)
  have htids : e1.trainIds = e2.trainIds := by
    obtain ⟨sel, -, -, rfl⟩ := select_ok_iff.1 h1
    obtain ⟨sel', -, -, rfl⟩ := select_ok_iff.1 h4
    obtain ⟨n1, hn1, rfl⟩ := (selectTrains_ok_iff hd1).1 h2
    obtain ⟨n2, hn2, rfl⟩ := (selectTrains_ok_iff hc).1 h3
    simp only [DC.restrict] at hn1 ⊢
    rw [hn1] at hn2
    exact Except.ok.inj hn2
  have hd1t : d1.trainIds = c.trainIds := by
    obtain ⟨sel, -, -, rfl⟩ := select_ok_iff.1 h1; rfl
  have he2t : e2.trainIds = d2.trainIds := by
    obtain ⟨sel, -, -, rfl⟩ := select_ok_iff.1 h4; rfl
  have hcontrol : ∀ s, (∃ f ∈ d2.files, Holds f s) → (s ∈ c.controlSources ↔ s ∈ d2.controlSources) ∧
      (s ∈ c.instrumentSources ↔ s ∈ d2.instrumentSources) := by
    rintro s ⟨f, hf, hh⟩
    rw [mem_controlSources, mem_controlSources, mem_instrumentSources, mem_instrumentSources, hsel2]
    constructor
    · constructor
      · rintro ⟨a, g, hg, hgs⟩
        exact ⟨a, f, hf, (hcat g hg f (hsub2 f hf) s (Or.inl hgs) hh).1.1 hgs⟩
      · rintro ⟨a, g, hg, hgs⟩; exact ⟨a, g, hsub2 g hg, hgs⟩
    · constructor
      · rintro ⟨a, g, hg, hgs⟩
        exact ⟨a, f, hf, (hcat g hg f (hsub2 f hf) s (Or.inr hgs) hh).2.1 hgs⟩
      · rintro ⟨a, g, hg, hgs⟩; exact ⟨a, g, hsub2 g hg, hgs⟩
  have hfiles : ∀ s k, Available d1 s k → ∀ f, Holds f s → (f ∈ e1.files ↔ f ∈ d2.files) := by
    intro s k ha f hh
    obtain ⟨sel, -, -, rfl⟩ := select_ok_iff.1 h1
    have hsk := (restrict_allSources.1 ha.1).1
    constructor
    · intro hf
      have hf1 := hsub1 f hf
      have hfc := hd1s f hf1
      rw [hkeep2 f hfc, ← he2t, ← htids]
      exact (hkeep1 f hf1).1 hf
    · intro hf
      have hfc := hsub2 f hf
      have hf1 : f ∈ (c.restrict sel).files := mem_filesFor.2 ⟨hfc, s, hsk, hh⟩
      rw [hkeep1 f hf1, htids, he2t]
      exact (hkeep2 f hfc).1 hf
  have hav : ∀ s k, Available e1 s k ↔ Available e2 s k := by
    intro s k
    rw [av1, ex1, ex2, av2]
    have hm : (∃ f ∈ d2.files, Holds f s) → (MatchesOne c l s k ↔ MatchesOne d2 l s k) := by
      intro hf
      have := (hcontrol s hf).1
      unfold MatchesOne KeyMatches
      simp only [this]
    constructor
    · rintro ⟨⟨ha, hmt⟩, f, hf, hh⟩
      have hd := (ex1 s k).2 ⟨ha, hmt⟩
      have hf2 := (hfiles s k hd f hh).1 hf
      exact ⟨⟨ha, f, hf2, hh⟩, (hm ⟨f, hf2, hh⟩).1 hmt⟩
    · rintro ⟨⟨ha, f, hf, hh⟩, hmt⟩
      have hmt := (hm ⟨f, hf, hh⟩).2 hmt
      have hd := (ex1 s k).2 ⟨ha, hmt⟩
      exact ⟨⟨ha, hmt⟩, f, (hfiles s k hd f hh).2 hf, hh⟩
  refine ⟨htids, hav, fun s k ha roi => ?_⟩
  have ha2 := (hav s k).1 ha
  have hd1a := ((av1 s k).1 ha).1
  have hd2a := ((ex2 s k).1 ha2).1
  rw [select_keeps_data roi h4 hd2a ha2]
  -- the two train selections
  have hsi : e1.sourceIndex s = d2.sourceIndex s := by
    obtain ⟨sel, -, -, rfl⟩ := select_ok_iff.1 h1
    have hsk := (restrict_allSources.1 hd1a.1).1
    have hr := restrict_sourceIndex (c := c) hsk
    obtain ⟨n1, hn1, rfl⟩ := (selectTrains_ok_iff hd1).1 h2
    obtain ⟨n2, hn2, rfl⟩ := (selectTrains_ok_iff hc).1 h3
    have : n1 = n2 := by
      rw [show (c.restrict sel).trainIds = c.trainIds from rfl, hn2] at hn1
      exact (Except.ok.inj hn1).symm
    subst this
    unfold DC.sourceIndex at hr ⊢
    rw [List.filter_comm, hr, List.filter_comm]
  apply getArray_congr
  · rw [htids, he2t]
  · exact hsi
  · obtain ⟨f, hf, hh⟩ := (mem_allSources.1 hd2a.1).2
    rw [← (hcontrol s ⟨f, hf, hh⟩).2]
    obtain ⟨sel, -, -, rfl⟩ := select_ok_iff.1 h1
    have hsk := (restrict_allSources.1 hd1a.1).1
    have hcs : s ∈ c.selection.keys := hsel2 ▸ (mem_allSources.1 hd2a.1).1
    obtain ⟨n1, hn1, rfl⟩ := (selectTrains_ok_iff hd1).1 h2
    rw [mem_instrumentSources, mem_instrumentSources]
    constructor
    · rintro ⟨-, g, hg, hi⟩
      exact ⟨hcs, g, hd1s g (hsub1 g hg), hi⟩
    · rintro ⟨-, g, hg, hi⟩
      refine ⟨hsk, f, ?_, (hcat g hg f (hsub2 f hf) s (Or.inr hi) hh).2.1 hi⟩
      exact (hfiles s k hd1a f hh).2 hf
  · rw [checkField_ok.2 ha, checkField_ok.2 hd2a]


/-- The two orders for the files of `exArr`: patterns for the source, and trains 2 and 3. -/
example : ∃ d1 e1 d2 e2, exArr.select (.globs [(ch! "D*", ch! "*")]) = .ok d1 ∧
    d1.selectTrains (.idList [2, 3]) = .ok e1 ∧ exArr.selectTrains (.idList [2, 3]) = .ok d2 ∧
    d2.select (.globs [(ch! "D*", ch! "*")]) = .ok e2 ∧
    e1.getArray (ch! "D:o") (ch! "data.y") id = .ok ⟨[20, 12], some [2, 3], [], 0⟩ :=
  ⟨{ exArr with ctxCloses := false }, { exArr with trainIds := [2, 3], ctxCloses := false },
    { exArr with trainIds := [2, 3], ctxCloses := false }, { exArr with trainIds := [2, 3], ctxCloses := false },
    by decide, by decide, by decide, by decide, by decide⟩

/-- The commutation needs both orders to succeed: trains which no file of the source has make the source disappear,
and selecting it afterwards fails. -/
theorem select_after_trains_fails :
    let c : DC Nat := { files := [exInst (ch! "a") [1] [0] [1] [10]], selection := [(ch! "D:o", none)],
                        trainIds := [1, 2], ctxCloses := false }
    (c.select (.globs [(ch! "D:o", ch! "*")])).map (fun d => (d.selectTrains (.idList [2])).map DC.trainIds)
      = .ok (.ok [2]) ∧
    (c.selectTrains (.idList [2])).map (fun d => d.select (.globs [(ch! "D:o", ch! "*")])) = .ok (.error .value) := by
  decide

/-! ### C17 -/

/-- A rearrangement: some order in which the elements of a set are visited. -/
def IsOrder (order : List (FileAccess V) → List (FileAccess V)) : Prop := ∀ l, (order l).Perm l

/-- Within these collections, a file name stands for one file. -/
def NamesAgree (cs : List (DC V)) : Prop :=
  ∀ c ∈ cs, ∀ d ∈ cs, ∀ f ∈ c.files, ∀ g ∈ d.files, f.filename = g.filename → f = g

theorem mem_dedupFilesAux {l : List (FileAccess V)} : ∀ {seen : List Str} {f : FileAccess V},
    (f ∈ dedupFilesAux seen l → f ∈ l ∧ f.filename ∉ seen) ∧
    (f ∈ l → f.filename ∉ seen → ∃ g ∈ dedupFilesAux seen l, g.filename = f.filename) := by
  induction l with
  | nil => intro seen f; simp [dedupFilesAux]
  | cons x l ih =>
    intro seen f
    simp only [dedupFilesAux]
    by_cases hx : x.filename ∈ seen
    · rw [if_pos hx]
      refine ⟨fun h => ⟨by simp [(ih.1 h).1], (ih.1 h).2⟩, fun h hn => ?_⟩
      rcases List.mem_cons.1 h with rfl | h
      · exact absurd hx hn
      · exact ih.2 h hn
    · rw [if_neg hx]
      constructor
      · intro h
        rcases List.mem_cons.1 h with rfl | h
        · exact ⟨by simp, hx⟩
        · have := ih.1 h
          exact ⟨by simp [this.1], fun h' => this.2 (by simp [h'])⟩
      · intro h hn
        by_cases hfx : f.filename = x.filename
        · exact ⟨x, by simp, hfx.symm⟩
        · rcases List.mem_cons.1 h with rfl | h
          · exact absurd rfl hfx
          · obtain ⟨g, hg, he⟩ := (ih (seen := x.filename :: seen)).2 h (by simp [hfx, hn])
            exact ⟨g, by simp [hg], he⟩

theorem dedupFilesAux_nodup {l : List (FileAccess V)} : ∀ {seen : List Str},
    ((dedupFilesAux seen l).map FileAccess.filename).Nodup := by
  induction l with
  | nil => intro seen; simp [dedupFilesAux]
  | cons x l ih =>
    intro seen
    simp only [dedupFilesAux]
    split
    · exact ih
    · rw [List.map_cons, List.nodup_cons]
      refine ⟨?_, ih⟩
      intro h
      obtain ⟨g, hg, he⟩ := List.mem_map.1 h
      exact (mem_dedupFilesAux.1 hg).2 (by simp [he])

theorem mem_union_files {order : List (FileAccess V) → List (FileAccess V)} (ho : IsOrder order) {cs : List (DC V)}
    (hn : NamesAgree cs) (f : FileAccess V) :
    f ∈ order (dedupFiles (cs.flatMap DC.files)) ↔ ∃ c ∈ cs, f ∈ c.files := by
  rw [(ho _).mem_iff]
  unfold dedupFiles
  constructor
  · intro h; exact List.mem_flatMap.1 (mem_dedupFilesAux.1 h).1
  · rintro ⟨c, hc, hf⟩
    obtain ⟨g, hg, he⟩ := (mem_dedupFilesAux (seen := [])).2 (List.mem_flatMap.2 ⟨c, hc, hf⟩) (by simp)
    obtain ⟨d, hd, hgd⟩ := List.mem_flatMap.1 (mem_dedupFilesAux.1 hg).1
    rw [hn d hd c hc g hgd f hf he] at hg
    exact hg

theorem union_names_nodup {order : List (FileAccess V) → List (FileAccess V)} (ho : IsOrder order) (cs : List (DC V)) :
    ((order (dedupFiles (cs.flatMap DC.files))).map FileAccess.filename).Nodup :=
  ((ho _).map _).nodup_iff.2 dedupFilesAux_nodup

theorem union_noConflict_iff {order : List (FileAccess V) → List (FileAccess V)} (ho : IsOrder order)
    {cs : List (DC V)} (hn : NamesAgree cs) :
    NoConflict (order (dedupFiles (cs.flatMap DC.files))) ↔
      ∀ c ∈ cs, ∀ d ∈ cs, ∀ f ∈ c.files, ∀ g ∈ d.files, f.filename ≠ g.filename → Compatible f g := by
  have hsymm : ∀ {f g : FileAccess V}, Compatible f g → Compatible g f := fun h s t h1 h2 h3 h4 => h s t h2 h1 h4 h3
  have hnod := union_names_nodup ho cs
  constructor
  · intro h c hc d hd f hf g hg hne
    have hf' := (mem_union_files ho hn f).2 ⟨c, hc, hf⟩
    have hg' := (mem_union_files ho hn g).2 ⟨d, hd, hg⟩
    have q1 : (order (dedupFiles (cs.flatMap DC.files))).Pairwise
        (fun f g => f.filename ≠ g.filename → Compatible f g) := List.Pairwise.imp (S := fun f g => f.filename ≠ g.filename → Compatible f g) (fun hh _ => hh) h
    have q2 : (order (dedupFiles (cs.flatMap DC.files))).Pairwise
        (flip (fun f g => f.filename ≠ g.filename → Compatible f g)) := List.Pairwise.imp (S := flip (fun f g => f.filename ≠ g.filename → Compatible f g)) (fun hh _ => hsymm hh) h
    have := List.Pairwise.forall_of_forall_of_flip (fun x _ hx => absurd rfl hx) q1 q2 hf' hg'
    exact this hne
  · intro h
    unfold NoConflict
    rw [List.Nodup, List.pairwise_map] at hnod
    refine hnod.imp_of_mem (fun {f g} hf hg hne => ?_)
    obtain ⟨c, hc, hf⟩ := (mem_union_files ho hn f).1 hf
    obtain ⟨d, hd, hg⟩ := (mem_union_files ho hn g).1 hg
    exact h c hc d hd f hf g hg hne

/-- C17. `union` raises ValueError exactly when two different files conflict, and nothing else. -/
theorem union_error_iff {order : List (FileAccess V) → List (FileAccess V)} (ho : IsOrder order) {c : DC V}
    {others : List (DC V)} (hn : NamesAgree (c :: others)) (e : PyErr) :
    c.union order others = .error e ↔ e = .value ∧ ∃ a ∈ c :: others, ∃ b ∈ c :: others, ∃ f ∈ a.files, ∃ g ∈ b.files,
      f.filename ≠ g.filename ∧ ¬ Compatible f g := by
  unfold DC.union
  dsimp only
  rw [make_error_iff, union_noConflict_iff ho hn]
  push Not
  rw [and_comm]

/-- C17. The train IDs of a union are the sorted union; its files are those of the collections, each once. -/
theorem union_trains_files {order : List (FileAccess V) → List (FileAccess V)} (ho : IsOrder order) {c d : DC V}
    {others : List (DC V)} (hn : NamesAgree (c :: others)) (h : c.union order others = .ok d) :
    d.trainIds.Pairwise (· < ·) ∧ (∀ t, t ∈ d.trainIds ↔ ∃ a ∈ c :: others, t ∈ a.trainIds) ∧
    (d.files.map FileAccess.filename).Nodup ∧ (∀ f, f ∈ d.files ↔ ∃ a ∈ c :: others, f ∈ a.files) := by
  unfold DC.union at h
  dsimp only at h
  obtain ⟨-, rfl⟩ := make_ok_iff.1 h
  refine ⟨sortedSet_pairwise _, fun t => ?_, union_names_nodup ho _, mem_union_files ho hn⟩
  rw [show (∃ a ∈ c :: others, t ∈ a.trainIds) ↔ t ∈ (c :: others).flatMap DC.trainIds from List.mem_flatMap.symm]
  exact mem_sortedSet

/-- C17. Whatever is available in one of the collections is available in the union. -/
theorem union_available {order : List (FileAccess V) → List (FileAccess V)} (ho : IsOrder order) {c d : DC V}
    {others : List (DC V)} (hn : NamesAgree (c :: others)) (hk : SameKeys d.files)
    (hx : ∀ a ∈ c :: others, SelectedKeysExist a) (h : c.union order others = .ok d)
    {a : DC V} (ha : a ∈ c :: others) {s k : Str} (hav : Available a s k) : Available d s k := by
  obtain ⟨-, -, -, hfiles⟩ := union_trains_files ho hn h
  unfold DC.union at h
  dsimp only at h
  obtain ⟨-, rfl⟩ := make_ok_iff.1 h
  obtain ⟨v, hv, hcase⟩ := available_iff.1 hav
  have hin : (s, v) ∈ ((c :: others).map DC.selection).flatten :=
    List.mem_flatten.2 ⟨a.selection, List.mem_map.2 ⟨a, ha, rfl⟩, Dict.mem_of_get? hv⟩
  rw [available_iff]
  refine ⟨_, (unionSelections_get? _ s _).2 ⟨⟨v, hin⟩, rfl⟩, ?_⟩
  have hfk : ∃ f ∈ a.files, Holds f s ∧ FileHasKey f s k := by
    rcases hcase with ⟨rfl, f, hf, hkey⟩ | ⟨ks, rfl, hkk, f, hf, hh⟩
    · obtain ⟨h1, h2⟩ := mem_sourceIndex.1 (List.mem_of_mem_head? hf)
      exact ⟨f, h1, h2, hkey⟩
    · exact ⟨f, hf, hh, hx a ha s ks hv k hkk f hf hh⟩
  obtain ⟨f, hf, hh, hkey⟩ := hfk
  have hfd := (hfiles f).2 ⟨a, ha, hf⟩
  by_cases hnone : (s, none) ∈ ((c :: others).map DC.selection).flatten
  · left
    rw [if_pos hnone]
    obtain ⟨g, hg, hgc, hgs⟩ := head?_sourceIndex ⟨f, hfd, hh⟩
    exact ⟨rfl, g, hg, (hk f hfd g hgc s hh hgs k).1 hkey⟩
  · right
    refine ⟨_, by rw [if_neg hnone], ?_, f, hfd, hh⟩
    rcases hcase with ⟨rfl, -⟩ | ⟨ks, rfl, hkk, -⟩
    · exact absurd hin hnone
    · exact mem_union_keys.2 ⟨ks, hin, hkk⟩

theorem followsOn_congr {f : FileAccess V} {T T' : List Nat} {instr : Bool} {source key : Str} (h : ∀ t, t ∈ T ↔ t ∈ T')
    (hf : FollowsOn f T instr source key) : FollowsOn f T' instr source key := by
  intro firsts counts hix i0 i a b n hs
  refine hf firsts counts hix i0 i a b n ⟨hs.1, fun j h1 h2 => ?_, ?_⟩
  · obtain ⟨t, ht, hm⟩ := hs.2.1 j h1 h2
    exact ⟨t, ht, (h t).2 hm⟩
  · refine hs.2.2.imp id ?_
    rintro ⟨t, ht, hm⟩
    exact ⟨t, ht, fun h' => hm ((h t).1 h')⟩

/-- Same data for two collections having the same files and trains. -/
theorem same_files_same_data {d d' : DC V} {instr : Bool} {source key : Str} {roi : V → W} {a : LArr W}
    (hd : NoConflict d.files) (hd' : NoConflict d'.files) (hv : FollowsIn d d.trainIds instr source key)
    (hf : ∀ f, f ∈ d.files ↔ f ∈ d'.files) (ht : ∀ t, t ∈ d.trainIds ↔ t ∈ d'.trainIds)
    (hav : Available d' source key) (ha : d.getArray source key roi = .ok a) :
    ∃ b, d'.getArray source key roi = .ok b ∧ ∀ t, labelled b t = labelled a t := by
  have hv' : FollowsIn d' d'.trainIds instr source key := fun f h hh =>
    ⟨(hv f ((hf f).2 h) hh).1, (hv f ((hf f).2 h) hh).2.1, (hv f ((hf f).2 h) hh).2.2.1,
      followsOn_congr ht (hv f ((hf f).2 h) hh).2.2.2⟩
  have hav0 := checkField_ok.1 (getArray_ok ha).1
  have hmis : ¬ Mismatch d' instr source key := by
    rintro ⟨f, h, g, hg, h1, h2, x, y, h3, h4, h5⟩
    have := (get_array_mismatch_gaps roi hd hv hav0).1
      ⟨f, (hf f).2 h, g, (hf g).2 hg, h1, h2, x, y, h3, h4, h5⟩
    rw [ha] at this
    simp at this
  obtain ⟨b, hb, -⟩ := (get_array_mismatch_gaps roi hd' hv' hav).2 hmis
  refine ⟨b, hb, fun t => ?_⟩
  obtain ⟨-, a1, a2⟩ := get_array_follows hd hv ha
  obtain ⟨-, b1, b2⟩ := get_array_follows hd' hv' hb
  by_cases htd : t ∈ d.trainIds
  · by_cases hex : ∃ f ∈ d.files, Holds f source ∧ t ∈ f.trainIds
    · obtain ⟨f, hf1, hh, htf⟩ := hex
      rw [a1 t htd f hf1 hh htf, b1 t ((ht t).1 htd) f ((hf f).1 hf1) hh htf]
    · have hex : ∀ f ∈ d.files, Holds f source → t ∉ f.trainIds := fun f hf hh htf => hex ⟨f, hf, hh, htf⟩
      rw [a2 t (Or.inr hex), b2 t (Or.inr (fun f h => hex f ((hf f).2 h)))]
  · rw [a2 t (Or.inl htd), b2 t (Or.inl (fun h => htd ((ht t).2 h)))]

/-- Two collections a user cannot tell apart (other than by the order in which sources are listed): same trains,
same files, same pairs available, same data. -/
def SameView (d d' : DC V) : Prop :=
  d.trainIds = d'.trainIds ∧ (∀ f, f ∈ d.files ↔ f ∈ d'.files) ∧
  (∀ s k, Available d s k ↔ Available d' s k) ∧
  ∀ (instr : Bool) (s k : Str) (a : LArr V), FollowsIn d d.trainIds instr s k → d.getArray s k id = .ok a →
    ∃ b, d'.getArray s k id = .ok b ∧ ∀ t, labelled b t = labelled a t

/-- The availability in collections with the same files and equivalent selections. -/
theorem available_of_equiv {d d' : DC V} (hk : SameKeys d.files) (hf : ∀ f, f ∈ d.files ↔ f ∈ d'.files)
    (h1 : ∀ s, d.selection.get? s = some none → d'.selection.get? s = some none)
    (h2 : ∀ s ks, d.selection.get? s = some (some ks) → ∃ ks', d'.selection.get? s = some (some ks') ∧ ∀ k ∈ ks, k ∈ ks')
    {s k : Str} (h : Available d s k) : Available d' s k := by
  rw [available_iff] at h ⊢
  rcases h with ⟨v, hv, ⟨rfl, f, hfh, hkey⟩ | ⟨ks, rfl, hkk, f, hfd, hh⟩⟩
  · obtain ⟨hf1, hf2⟩ := mem_sourceIndex.1 (List.mem_of_mem_head? hfh)
    obtain ⟨g, hg, hgc, hgs⟩ := head?_sourceIndex (c := d') ⟨f, (hf f).1 hf1, hf2⟩
    exact ⟨none, h1 s hv, Or.inl ⟨rfl, g, hg, (hk f hf1 g ((hf g).2 hgc) s hf2 hgs k).1 hkey⟩⟩
  · obtain ⟨ks', h3, h4⟩ := h2 s ks hv
    exact ⟨_, h3, Or.inr ⟨ks', rfl, h4 k hkk, f, (hf f).1 hfd, hh⟩⟩

/-- Unions of lists of selections with the same members are equivalent. -/
theorem unionSelections_equiv {A B : List Selection} (h : ∀ x, x ∈ A.flatten → x ∈ B.flatten)
    (hnone : ∀ s, (s, none) ∈ B.flatten → (s, none) ∈ A.flatten) :
    (∀ s, (unionSelections A).get? s = some none → (unionSelections B).get? s = some none) ∧
    (∀ s ks, (unionSelections A).get? s = some (some ks) →
      ∃ ks', (unionSelections B).get? s = some (some ks') ∧ ∀ k ∈ ks, k ∈ ks') := by
  constructor
  · intro s hs
    obtain ⟨⟨w, hw⟩, he⟩ := (unionSelections_get? _ _ _).1 hs
    refine (unionSelections_get? _ _ _).2 ⟨⟨w, h _ hw⟩, ?_⟩
    by_cases hn : (s, none) ∈ A.flatten
    · rw [if_pos (h _ hn)]
    · rw [if_neg hn] at he; simp at he
  · intro s ks hs
    obtain ⟨⟨w, hw⟩, he⟩ := (unionSelections_get? _ _ _).1 hs
    by_cases hn : (s, none) ∈ A.flatten
    · rw [if_pos hn] at he; simp at he
    · rw [if_neg hn] at he
      obtain rfl := Option.some.inj he
      have hnB : (s, none) ∉ B.flatten := fun hb => hn (hnone s hb)
      refine ⟨_, (unionSelections_get? _ _ _).2 ⟨⟨w, h _ hw⟩, by rw [if_neg hnB]⟩, ?_⟩
      intro k hk
      obtain ⟨ks', h1, h2⟩ := mem_union_keys.1 hk
      exact mem_union_keys.2 ⟨ks', h _ h1, h2⟩

theorem union_ok_iff {order : List (FileAccess V) → List (FileAccess V)} {c d : DC V} {others : List (DC V)} :
    c.union order others = .ok d ↔ NoConflict (order (dedupFiles ((c :: others).flatMap DC.files))) ∧
      d = ⟨order (dedupFiles ((c :: others).flatMap DC.files)), unionSelections ((c :: others).map DC.selection),
        sortedSet ((c :: others).flatMap DC.trainIds), false⟩ := by
  unfold DC.union
  dsimp only
  rw [make_ok_iff]
  rfl

/-- C17. The result does not depend on the order of the collections, nor on the order in which the set of files is
iterated. -/
theorem union_order_independent {o o' : List (FileAccess V) → List (FileAccess V)} (ho : IsOrder o) (ho' : IsOrder o')
    {c c' d : DC V} {others others' : List (DC V)} (hp : ∀ x, x ∈ c :: others ↔ x ∈ c' :: others')
    (hn : NamesAgree (c :: others)) (h : c.union o others = .ok d) (hk : SameKeys d.files) :
    ∃ d', c'.union o' others' = .ok d' ∧ SameView d d' := by
  have hn' : NamesAgree (c' :: others') := fun a ha b hb => hn a ((hp a).2 ha) b ((hp b).2 hb)
  obtain ⟨hnc, hd⟩ := union_ok_iff.1 h
  have hnc' : NoConflict (o' (dedupFiles ((c' :: others').flatMap DC.files))) := by
    rw [union_noConflict_iff ho hn] at hnc
    rw [union_noConflict_iff ho' hn']
    exact fun a ha b hb => hnc a ((hp a).2 ha) b ((hp b).2 hb)
  have h' := union_ok_iff.2 ⟨hnc', rfl⟩
  refine ⟨_, h', ?_⟩
  obtain ⟨t1, t2, -, f1⟩ := union_trains_files ho hn h
  obtain ⟨t1', t2', -, f1'⟩ := union_trains_files ho' hn' h'
  have ht : ∀ t, t ∈ d.trainIds ↔ t ∈ sortedSet ((c' :: others').flatMap DC.trainIds) := by
    intro t; rw [t2, t2']; simp only [hp]
  have hf : ∀ f, f ∈ d.files ↔ f ∈ o' (dedupFiles ((c' :: others').flatMap DC.files)) := by
    intro f; rw [f1, f1']; simp only [hp]
  have hsel : d.selection = unionSelections ((c :: others).map DC.selection) := by rw [hd]
  have hfl : ∀ x, x ∈ ((c :: others).map DC.selection).flatten ↔ x ∈ ((c' :: others').map DC.selection).flatten := by
    intro x
    simp only [List.mem_flatten, List.mem_map]
    constructor
    · rintro ⟨l, ⟨a, ha, rfl⟩, hx⟩; exact ⟨_, ⟨a, (hp a).1 ha, rfl⟩, hx⟩
    · rintro ⟨l, ⟨a, ha, rfl⟩, hx⟩; exact ⟨_, ⟨a, (hp a).2 ha, rfl⟩, hx⟩
  have hav : ∀ s k, Available d s k ↔ Available (⟨o' (dedupFiles ((c' :: others').flatMap DC.files)),
      unionSelections ((c' :: others').map DC.selection),
      sortedSet ((c' :: others').flatMap DC.trainIds), false⟩ : DC V) s k := by
    intro s k
    constructor
    · obtain ⟨e1, e2⟩ := unionSelections_equiv (fun x => (hfl x).1) (fun s => (hfl (s, none)).2)
      rw [← hsel] at e1 e2
      exact available_of_equiv hk hf e1 e2
    · obtain ⟨e1, e2⟩ := unionSelections_equiv (fun x => (hfl x).2) (fun s => (hfl (s, none)).1)
      rw [← hsel] at e1 e2
      refine available_of_equiv (fun f hf1 g hg1 => hk f ((hf f).2 hf1) g ((hf g).2 hg1)) (fun f => (hf f).symm) e1 e2
  refine ⟨eq_of_pairwise_lt t1 t1' ht, hf, hav, fun instr s k a hv ha => ?_⟩
  refine same_files_same_data (by rw [hd]; exact hnc) hnc' hv hf ht ?_ ha
  exact (hav s k).1 (checkField_ok.1 (getArray_ok ha).1)

/-- C17. The result does not depend on the grouping either: joining some of the collections first gives the same. -/
theorem union_grouping {o1 o2 o3 : List (FileAccess V) → List (FileAccess V)} (h1 : IsOrder o1) (h2 : IsOrder o2)
    (h3 : IsOrder o3) {a b inner d : DC V} {bs rest : List (DC V)} (hn : NamesAgree (a :: (b :: bs ++ rest)))
    (hin : b.union o1 bs = .ok inner) (h : a.union o2 (inner :: rest) = .ok d) (hk : SameKeys d.files) :
    ∃ d', a.union o3 (b :: bs ++ rest) = .ok d' ∧ SameView d d' := by
  have hnin : NamesAgree (b :: bs) := fun x hx y hy =>
    hn x (by simp at hx ⊢; tauto) y (by simp at hy ⊢; tauto)
  obtain ⟨it1, it2, -, if1⟩ := union_trains_files h1 hnin hin
  obtain ⟨-, hid⟩ := union_ok_iff.1 hin
  have hfiles_out : ∀ f, (∃ x ∈ a :: inner :: rest, f ∈ x.files) ↔ ∃ x ∈ a :: (b :: bs ++ rest), f ∈ x.files := by
    intro f
    simp only [List.mem_cons, List.cons_append, List.mem_append, or_assoc]
    constructor
    · rintro ⟨x, hx | hx | hx, hf⟩
      · exact ⟨x, Or.inl hx, hf⟩
      · subst hx
        obtain ⟨y, hy, hfy⟩ := (if1 f).1 hf
        rw [List.mem_cons] at hy
        exact ⟨y, by tauto, hfy⟩
      · exact ⟨x, by tauto, hf⟩
    · rintro ⟨x, rfl | rfl | hx | hx, hf⟩
      · exact ⟨x, Or.inl rfl, hf⟩
      · exact ⟨inner, by tauto, (if1 f).2 ⟨x, by simp, hf⟩⟩
      · exact ⟨inner, by tauto, (if1 f).2 ⟨x, by simp [hx], hf⟩⟩
      · exact ⟨x, by tauto, hf⟩
  have hnout : NamesAgree (a :: inner :: rest) := by
    intro x hx y hy f hf g hg
    obtain ⟨x', hx', hf'⟩ := (hfiles_out f).1 ⟨x, hx, hf⟩
    obtain ⟨y', hy', hg'⟩ := (hfiles_out g).1 ⟨y, hy, hg⟩
    exact hn x' hx' y' hy' f hf' g hg'
  obtain ⟨hnc, hd⟩ := union_ok_iff.1 h
  have hnc' : NoConflict (o3 (dedupFiles ((a :: (b :: bs ++ rest)).flatMap DC.files))) := by
    rw [union_noConflict_iff h2 hnout] at hnc
    rw [union_noConflict_iff h3 hn]
    intro x hx y hy f hf g hg
    obtain ⟨x', hx', hf'⟩ := (hfiles_out f).2 ⟨x, hx, hf⟩
    obtain ⟨y', hy', hg'⟩ := (hfiles_out g).2 ⟨y, hy, hg⟩
    exact hnc x' hx' y' hy' f hf' g hg'
  have h' := union_ok_iff.2 ⟨hnc', rfl⟩
  refine ⟨_, h', ?_⟩
  obtain ⟨t1, t2, -, f1⟩ := union_trains_files h2 hnout h
  obtain ⟨t1', t2', -, f1'⟩ := union_trains_files h3 hn h'
  have ht : ∀ t, t ∈ d.trainIds ↔ t ∈ sortedSet ((a :: (b :: bs ++ rest)).flatMap DC.trainIds) := by
    intro t; rw [t2, t2']
    simp only [List.mem_cons, List.cons_append, List.mem_append, or_assoc]
    constructor
    · rintro ⟨x, hx | hx | hx, hf⟩
      · exact ⟨x, Or.inl hx, hf⟩
      · subst hx
        obtain ⟨y, hy, hfy⟩ := (it2 t).1 hf
        rw [List.mem_cons] at hy
        exact ⟨y, by tauto, hfy⟩
      · exact ⟨x, by tauto, hf⟩
    · rintro ⟨x, rfl | rfl | hx | hx, hf⟩
      · exact ⟨x, Or.inl rfl, hf⟩
      · exact ⟨inner, by tauto, (it2 t).2 ⟨x, by simp, hf⟩⟩
      · exact ⟨inner, by tauto, (it2 t).2 ⟨x, by simp [hx], hf⟩⟩
      · exact ⟨x, by tauto, hf⟩
  have hf : ∀ f, f ∈ d.files ↔ f ∈ o3 (dedupFiles ((a :: (b :: bs ++ rest)).flatMap DC.files)) := by
    intro f; rw [f1, f1']; exact hfiles_out f
  have hsel : d.selection = unionSelections ((a :: inner :: rest).map DC.selection) := by rw [hd]
  have hseli : inner.selection = unionSelections ((b :: bs).map DC.selection) := by rw [hid]
  -- what each selection has for a source
  have hA : ∀ s v, (s, v) ∈ ((a :: inner :: rest).map DC.selection).flatten ↔
      (s, v) ∈ a.selection ∨ (unionSelections ((b :: bs).map DC.selection)).get? s = some v ∨
        ∃ x ∈ rest, (s, v) ∈ x.selection := by
    intro s v
    simp only [List.map_cons, List.flatten_cons, List.mem_append, hseli, Dict.get?_eq_some_iff (unionSelections_nodup _),
      List.mem_flatten, List.mem_map]
    constructor
    · rintro (h | h | ⟨l, ⟨x, hx, rfl⟩, h⟩)
      · exact Or.inl h
      · exact Or.inr (Or.inl h)
      · exact Or.inr (Or.inr ⟨x, hx, h⟩)
    · rintro (h | h | ⟨x, hx, h⟩)
      · exact Or.inl h
      · exact Or.inr (Or.inl h)
      · exact Or.inr (Or.inr ⟨_, ⟨x, hx, rfl⟩, h⟩)
  have hB : ∀ s v, (s, v) ∈ ((a :: (b :: bs ++ rest)).map DC.selection).flatten ↔
      (s, v) ∈ a.selection ∨ (s, v) ∈ ((b :: bs).map DC.selection).flatten ∨ ∃ x ∈ rest, (s, v) ∈ x.selection := by
    intro s v
    simp only [List.map_cons, List.map_append, List.flatten_cons, List.mem_append, List.cons_append, List.flatten_append,
      List.mem_flatten, List.mem_map, or_assoc]
    constructor
    · rintro (h | h | h | ⟨l, ⟨x, hx, rfl⟩, h⟩)
      · exact Or.inl h
      · exact Or.inr (Or.inl h)
      · exact Or.inr (Or.inr (Or.inl h))
      · exact Or.inr (Or.inr (Or.inr ⟨x, hx, h⟩))
    · rintro (h | h | h | ⟨x, hx, h⟩)
      · exact Or.inl h
      · exact Or.inr (Or.inl h)
      · exact Or.inr (Or.inr (Or.inl h))
      · exact Or.inr (Or.inr (Or.inr ⟨_, ⟨x, hx, rfl⟩, h⟩))
  have hnoneI : ∀ s, (unionSelections ((b :: bs).map DC.selection)).get? s = some none ↔
      (s, none) ∈ ((b :: bs).map DC.selection).flatten := by
    intro s
    rw [unionSelections_get?]
    constructor
    · rintro ⟨-, he⟩
      by_contra hne
      rw [if_neg hne] at he; simp at he
    · intro h; exact ⟨⟨_, h⟩, by rw [if_pos h]⟩
  have hnone : ∀ s, (s, none) ∈ ((a :: inner :: rest).map DC.selection).flatten ↔
      (s, none) ∈ ((a :: (b :: bs ++ rest)).map DC.selection).flatten := by
    intro s; rw [hA, hB, hnoneI]
  have hav : ∀ s k, Available d s k ↔ Available (⟨o3 (dedupFiles ((a :: (b :: bs ++ rest)).flatMap DC.files)),
      unionSelections ((a :: (b :: bs ++ rest)).map DC.selection),
      sortedSet ((a :: (b :: bs ++ rest)).flatMap DC.trainIds), false⟩ : DC V) s k := by
    intro s k
    -- keys present and keys included agree
    have hkeys : ∀ s, (∃ v, (s, v) ∈ ((a :: inner :: rest).map DC.selection).flatten) ↔
        ∃ v, (s, v) ∈ ((a :: (b :: bs ++ rest)).map DC.selection).flatten := by
      intro s
      constructor
      · rintro ⟨v, hv⟩
        rcases (hA s v).1 hv with h | h | h
        · exact ⟨v, (hB s v).2 (Or.inl h)⟩
        · obtain ⟨⟨w, hw⟩, -⟩ := (unionSelections_get? _ _ _).1 h
          exact ⟨w, (hB s w).2 (Or.inr (Or.inl hw))⟩
        · exact ⟨v, (hB s v).2 (Or.inr (Or.inr h))⟩
      · rintro ⟨v, hv⟩
        rcases (hB s v).1 hv with h | h | h
        · exact ⟨v, (hA s v).2 (Or.inl h)⟩
        · exact ⟨_, (hA s _).2 (Or.inr (Or.inl ((unionSelections_get? _ _ _).2 ⟨⟨v, h⟩, rfl⟩)))⟩
        · exact ⟨v, (hA s v).2 (Or.inr (Or.inr h))⟩
    have hks : ∀ s k, (s, none) ∉ ((a :: inner :: rest).map DC.selection).flatten →
        ((∃ ks, (s, some ks) ∈ ((a :: inner :: rest).map DC.selection).flatten ∧ k ∈ ks) ↔
        ∃ ks, (s, some ks) ∈ ((a :: (b :: bs ++ rest)).map DC.selection).flatten ∧ k ∈ ks) := by
      intro s k hno
      have hnoI : (s, none) ∉ ((b :: bs).map DC.selection).flatten := fun h =>
        hno ((hA s none).2 (Or.inr (Or.inl ((hnoneI s).2 h))))
      constructor
      · rintro ⟨ks, hv, hkk⟩
        rcases (hA s _).1 hv with h | h | h
        · exact ⟨ks, (hB s _).2 (Or.inl h), hkk⟩
        · obtain ⟨-, he⟩ := (unionSelections_get? _ _ _).1 h
          rw [if_neg hnoI] at he
          simp only [Option.some.injEq] at he
          rw [he] at hkk
          obtain ⟨ks', h5, h6⟩ := mem_union_keys.1 hkk
          exact ⟨ks', (hB s _).2 (Or.inr (Or.inl h5)), h6⟩
        · exact ⟨ks, (hB s _).2 (Or.inr (Or.inr h)), hkk⟩
      · rintro ⟨ks, hv, hkk⟩
        rcases (hB s _).1 hv with h | h | h
        · exact ⟨ks, (hA s _).2 (Or.inl h), hkk⟩
        · exact ⟨_, (hA s _).2 (Or.inr (Or.inl ((unionSelections_get? _ _ _).2 ⟨⟨_, h⟩, by rw [if_neg hnoI]⟩))),
            mem_union_keys.2 ⟨ks, h, hkk⟩⟩
        · exact ⟨ks, (hA s _).2 (Or.inr (Or.inr h)), hkk⟩
    constructor
    · refine available_of_equiv hk hf (fun s hs => ?_) (fun s ks hs => ?_)
      · rw [hsel] at hs
        obtain ⟨h1, h2⟩ := (unionSelections_get? _ _ _).1 hs
        refine (unionSelections_get? _ _ _).2 ⟨(hkeys s).1 h1, ?_⟩
        by_cases hn : (s, none) ∈ ((a :: inner :: rest).map DC.selection).flatten
        · rw [if_pos ((hnone s).1 hn)]
        · rw [if_neg hn] at h2; simp at h2
      · rw [hsel] at hs
        obtain ⟨h1, h2⟩ := (unionSelections_get? _ _ _).1 hs
        by_cases hn : (s, none) ∈ ((a :: inner :: rest).map DC.selection).flatten
        · rw [if_pos hn] at h2; simp at h2
        · rw [if_neg hn] at h2
          obtain rfl := Option.some.inj h2
          refine ⟨_, (unionSelections_get? _ _ _).2 ⟨(hkeys s).1 h1, by rw [if_neg (fun h => hn ((hnone s).2 h))]⟩, ?_⟩
          intro k hk
          exact mem_union_keys.2 ((hks s k hn).1 (mem_union_keys.1 hk))
    · refine available_of_equiv (fun f hf1 g hg1 => hk f ((hf f).2 hf1) g ((hf g).2 hg1)) (fun f => (hf f).symm)
        (fun s hs => ?_) (fun s ks hs => ?_)
      · rw [hsel]
        obtain ⟨h1, h2⟩ := (unionSelections_get? _ _ _).1 hs
        refine (unionSelections_get? _ _ _).2 ⟨(hkeys s).2 h1, ?_⟩
        by_cases hn : (s, none) ∈ ((a :: inner :: rest).map DC.selection).flatten
        · rw [if_pos hn]
        · rw [if_neg (fun h => hn ((hnone s).2 h))] at h2; simp at h2
      · rw [hsel]
        obtain ⟨h1, h2⟩ := (unionSelections_get? _ _ _).1 hs
        by_cases hn : (s, none) ∈ ((a :: inner :: rest).map DC.selection).flatten
        · rw [if_pos ((hnone s).1 hn)] at h2; simp at h2
        · rw [if_neg (fun h => hn ((hnone s).2 h))] at h2
          obtain rfl := Option.some.inj h2
          refine ⟨_, (unionSelections_get? _ _ _).2 ⟨(hkeys s).2 h1, by rw [if_neg hn]⟩, ?_⟩
          intro k hk
          exact mem_union_keys.2 ((hks s k hn).2 (mem_union_keys.1 hk))
  refine ⟨eq_of_pairwise_lt t1 t1' ht, hf, hav, fun instr s k x hv ha => ?_⟩
  refine same_files_same_data (by rw [hd]; exact hnc) hnc' hv hf ht ?_ ha
  exact (hav s k).1 (checkField_ok.1 (getArray_ok ha).1)

/-- Two runs joined, in the two orders. -/
example : ∃ d d', ({ exArr with files := [exInst (ch! "a") [1, 3] [0, 2] [2, 1] [10, 11, 12]], trainIds := [1, 3] } : DC Nat).union
      id [{ exArr with files := [exInst (ch! "b") [2, 4] [0, 1] [1, 0] [20]], trainIds := [2, 4] }] = .ok d ∧
    ({ exArr with files := [exInst (ch! "b") [2, 4] [0, 1] [1, 0] [20]], trainIds := [2, 4] } : DC Nat).union
      List.reverse [{ exArr with files := [exInst (ch! "a") [1, 3] [0, 2] [2, 1] [10, 11, 12]], trainIds := [1, 3] }] = .ok d' ∧
    d = { exArr with trainIds := [1, 2, 3, 4], ctxCloses := false } ∧ d' = d :=
  ⟨{ exArr with trainIds := [1, 2, 3, 4], ctxCloses := false }, { exArr with trainIds := [1, 2, 3, 4], ctxCloses := false },
    by decide, by decide, rfl, rfl⟩

end KD

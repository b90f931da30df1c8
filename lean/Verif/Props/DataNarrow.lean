/-
C138: narrowing goes with copies and with other layouts of files.
-/
import Verif.Props.SameData
import Verif.Props.SelectAll

namespace KD

open KD.Spec

variable {V W : Type}

theorem restrict_control {c : DC V} {sel : Selection} (hsub : ∀ s ∈ sel.keys, s ∈ c.selection.keys) {s : Str} :
    (s ∈ (c.restrict sel).controlSources ↔ s ∈ sel.keys ∧ s ∈ c.controlSources) ∧
    (s ∈ (c.restrict sel).instrumentSources ↔ s ∈ sel.keys ∧ s ∈ c.instrumentSources) := by
  rw [mem_controlSources, mem_controlSources, mem_instrumentSources, mem_instrumentSources]
  constructor
  · constructor
    · rintro ⟨h1, f, hf, h2⟩; exact ⟨h1, hsub s h1, f, (mem_filesFor.1 hf).1, h2⟩
    · rintro ⟨h1, -, f, hf, h2⟩; exact ⟨h1, f, mem_filesFor.2 ⟨hf, s, h1, .inl h2⟩, h2⟩
  · constructor
    · rintro ⟨h1, f, hf, h2⟩; exact ⟨h1, hsub s h1, f, (mem_filesFor.1 hf).1, h2⟩
    · rintro ⟨h1, -, f, hf, h2⟩; exact ⟨h1, f, mem_filesFor.2 ⟨hf, s, h1, .inr h2⟩, h2⟩

theorem restrict_holdsEntries {c : DC V} {sel : Selection} {s : Str} (hs : s ∈ sel.keys) (b : Bool) (k : Str) (t : Nat) (es : List V) :
    HoldsEntries (c.restrict sel) b s k t es ↔ HoldsEntries c b s k t es := by
  have hm : ∀ f, Holds f s → (f ∈ (c.restrict sel).files ↔ f ∈ c.files) := fun f hh =>
    ⟨fun hf => (mem_filesFor.1 hf).1, fun hf => mem_filesFor.2 ⟨hf, s, hs, hh⟩⟩
  have hcov : Covered (c.restrict sel) s t ↔ Covered c s t := by
    constructor
    · rintro ⟨f, hf, hh, ht⟩; exact ⟨f, (hm f hh).1 hf, hh, ht⟩
    · rintro ⟨f, hf, hh, ht⟩; exact ⟨f, (hm f hh).2 hf, hh, ht⟩
  unfold HoldsEntries
  rw [hcov]
  constructor
  · rintro ⟨h1, h2⟩; exact ⟨fun f hf hh => h1 f ((hm f hh).2 hf) hh, h2⟩
  · rintro ⟨h1, h2⟩; exact ⟨fun f hf hh => h1 f ((hm f hh).1 hf) hh, h2⟩

theorem restrict_sameData {c d : DC V} (h : SameData c d) {sel sel' : Selection} (hsub : ∀ s ∈ sel.keys, s ∈ c.selection.keys)
    (hsub' : ∀ s ∈ sel'.keys, s ∈ d.selection.keys) (hsrc : ∀ s ∈ c.allSources, s ∈ sel.keys ↔ s ∈ sel'.keys)
    (hav : ∀ s k, Available (c.restrict sel) s k ↔ Available (d.restrict sel') s k)
    (hav' : ∀ s k, Available (c.restrict sel) s k → Available c s k) : SameData (c.restrict sel) (d.restrict sel') := by
  refine ⟨h.trains, fun s => ?_, fun s => ?_, hav, fun b s k hF t ht es => ?_⟩
  · rw [(restrict_control hsub).1, (restrict_control hsub').1, ← h.control]
    exact and_congr_left (fun hs => hsrc s (mem_all.2 (.inl hs)))
  · rw [(restrict_control hsub).2, (restrict_control hsub').2, ← h.instrument]
    exact and_congr_left (fun hs => hsrc s (mem_all.2 (.inr hs)))
  · have hs := (field_available hF).1
    have hk : s ∈ sel.keys := (restrict_allSources.1 hs).1
    have hsc : s ∈ c.allSources := mem_allSources.2 ⟨hsub s hk, (restrict_allSources.1 hs).2⟩
    rw [restrict_holdsEntries hk, restrict_holdsEntries ((hsrc s hsc).1 hk)]
    refine h.entries b s k ?_ t ht es
    rw [hasField_iff] at hF ⊢
    refine ⟨?_, hav' s k hF.2⟩
    cases b
    · simpa using ((restrict_control hsub).1.1 (by simpa using hF.1)).2
    · simpa using ((restrict_control hsub).2.1 (by simpa using hF.1)).2

/-! ### Patterns -/

theorem same_pairNothing {c d : DC V} (h : SameData c d) (p : Str × Str) : PairMatchesNothing c p ↔ PairMatchesNothing d p := by
  unfold PairMatchesNothing
  split
  · simp only [sameData_all h]
  · simp only [h.keys, h.control]

theorem same_matchesOne {c d : DC V} (h : SameData c d) (l : List (Str × Str)) (s k : Str) : MatchesOne c l s k ↔ MatchesOne d l s k := by
  unfold MatchesOne
  rw [h.control]

/-- The sources which a list of patterns selects. -/
theorem expandGlobs_sources {c : DC V} {l : List (Str × Str)} {sel : Selection} (h : c.expandSelection (.globs l) = .ok sel) (s : Str) :
    s ∈ sel.keys ↔ s ∈ c.allSources ∧ ∃ p ∈ l, globMatch p.1 s = true ∧
      (p.2 = ch! "*" ∨ ∃ k, Available c s k ∧ KeyMatches (s ∈ c.controlSources) p.2 k) := by
  obtain ⟨sels, -, rfl, hmem⟩ := expandGlobs_ok h
  rw [mem_unionSelections_keys]
  have e : (∃ x ∈ sels, s ∈ Dict.keys x) ↔ ∃ v, (s, v) ∈ sels.flatten := by
    simp only [List.mem_flatten]
    constructor
    · rintro ⟨x, hx, hs⟩
      obtain ⟨v, hv⟩ := Dict.mem_keys_iff.1 hs
      exact ⟨v, x, hx, Dict.mem_of_get? hv⟩
    · rintro ⟨v, x, hx, hv⟩
      exact ⟨x, hx, List.mem_map.2 ⟨_, hv, rfl⟩⟩
  rw [e]
  simp only [hmem]
  constructor
  · rintro ⟨v, p, hp, hs, hg, hgs⟩
    refine ⟨hs, p, hp, hg, ?_⟩
    rcases (globSource_some hgs).2 with ⟨hst, -⟩ | ⟨-, ks, keys, h2, -, hne, h3⟩
    · exact .inl hst
    · obtain ⟨k, hk⟩ := List.exists_mem_of_ne_nil _ hne
      exact .inr ⟨k, ⟨hs, ks, h2, ((h3 k).1 hk).1⟩, ((h3 k).1 hk).2⟩
  · rintro ⟨hs, p, hp, hg, hst | ⟨k, ⟨-, ks, hks, hk⟩, hkm⟩⟩
    · exact ⟨none, p, hp, hs, hg, by rw [hst]; exact globSource_star⟩
    · by_cases hst : p.2 = ch! "*"
      · exact ⟨none, p, hp, hs, hg, by rw [hst]; exact globSource_star⟩
      · obtain ⟨keys, h2, h3⟩ := globSource_keys hst hks
        have hkk : k ∈ keys := (h2 k).2 ⟨hk, hkm⟩
        have hne : keys ≠ [] := by rintro rfl; simp at hkk
        rw [if_neg hne] at h3
        exact ⟨_, p, hp, hs, hg, h3⟩

/-- The sources of which a list of patterns selects all keys. -/
theorem expandGlobs_whole {c : DC V} {l : List (Str × Str)} {sel : Selection} (h : c.expandSelection (.globs l) = .ok sel) (s : Str) :
    sel.get? s = some none ↔ s ∈ c.allSources ∧ ∃ p ∈ l, globMatch p.1 s = true ∧ p.2 = ch! "*" := by
  obtain ⟨sels, -, rfl, hmem⟩ := expandGlobs_ok h
  rw [unionSelections_get?]
  have e : ((∃ w, (s, w) ∈ sels.flatten) ∧ (none : Option (List Str)) = (if (s, none) ∈ sels.flatten then none
      else some (((sels.flatten.filter (fun kv => kv.1 = s)).map Prod.snd).filterMap id).flatten)) ↔ (s, none) ∈ sels.flatten := by
    by_cases hin : (s, none) ∈ sels.flatten
    · simp only [hin, if_true, and_true, iff_true]; exact ⟨_, hin⟩
    · simp [hin]
  rw [e, hmem]
  constructor
  · rintro ⟨p, hp, hs, hg, hgs⟩
    refine ⟨hs, p, hp, hg, ?_⟩
    rcases (globSource_some hgs).2 with ⟨hst, -⟩ | ⟨-, ks, keys, -, hv, -⟩
    · exact hst
    · simp at hv
  · rintro ⟨hs, p, hp, hg, hst⟩
    exact ⟨p, hp, hs, hg, by rw [hst]; exact globSource_star⟩

theorem expand_succeeds {c d : DC V} (h : SameData c d) (hc : NoConflict c.files) (hd : NoConflict d.files) (hrc : KeysReadable c)
    (hrd : KeysReadable d) {l : List (Str × Str)} {sel : Selection} (hs : c.expandSelection (.globs l) = .ok sel) :
    ∃ sel', d.expandSelection (.globs l) = .ok sel' := by
  cases hs' : d.expandSelection (.globs l) with
  | ok sel' => exact ⟨sel', rfl⟩
  | error e =>
    have he : d.select (.globs l) = .error e := by unfold DC.select; rw [hs']
    obtain rfl := (select_globs_error hd hrd l).2 e he
    obtain ⟨p, hp, hn⟩ := (select_globs_error hd hrd l).1.1 he
    have he' := (select_globs_error hc hrc l).1.2 ⟨p, hp, (same_pairNothing h p).2 hn⟩
    rw [select_ok_iff.2 ⟨sel, hs, filesFor_noConflict hc sel, rfl⟩] at he'
    simp at he'

/-- C138. `select` with patterns gives collections with the same data, and fails for both or for none. -/
theorem data_select {c d : DC V} (h : SameData c d) (hc : NoConflict c.files) (hd : NoConflict d.files) (hrc : KeysReadable c)
    (hrd : KeysReadable d) {l : List (Str × Str)}
    (hstar : ∀ p ∈ l, p.2 = ch! "*" → ∀ s ∈ c.allSources, globMatch p.1 s = true → c.selection.get? s = some none)
    (hstar' : ∀ p ∈ l, p.2 = ch! "*" → ∀ s ∈ d.allSources, globMatch p.1 s = true → d.selection.get? s = some none) :
    (c.select (.globs l) = .error .value ∧ d.select (.globs l) = .error .value) ∨
    ∃ c' d', c.select (.globs l) = .ok c' ∧ d.select (.globs l) = .ok d' ∧ SameData c' d' := by
  cases hs : c.expandSelection (.globs l) with
  | error e =>
    have he : c.select (.globs l) = .error e := by unfold DC.select; rw [hs]
    obtain rfl := (select_globs_error hc hrc l).2 e he
    obtain ⟨p, hp, hn⟩ := (select_globs_error hc hrc l).1.1 he
    exact .inl ⟨he, (select_globs_error hd hrd l).1.2 ⟨p, hp, (same_pairNothing h p).1 hn⟩⟩
  | ok sel =>
    obtain ⟨sel', hs'⟩ := expand_succeeds h hc hd hrc hrd hs
    have h1 := select_ok_iff.2 ⟨sel, hs, filesFor_noConflict hc sel, rfl⟩
    have h2 := select_ok_iff.2 ⟨sel', hs', filesFor_noConflict hd sel', rfl⟩
    refine .inr ⟨_, _, h1, h2, restrict_sameData h ?_ ?_ ?_ ?_ ?_⟩
    · intro s hk; exact (mem_allSources.1 ((expandGlobs_sources hs s).1 hk).1).1
    · intro s hk; exact (mem_allSources.1 ((expandGlobs_sources hs' s).1 hk).1).1
    · intro s _
      rw [expandGlobs_sources hs, expandGlobs_sources hs', sameData_all h]
      simp only [h.keys, h.control]
    · intro s k
      rw [select_globs_exact h1 hstar, select_globs_exact h2 hstar', h.keys, same_matchesOne h]
    · intro s k hk
      exact ((select_globs_exact h1 hstar s k).1 hk).1

theorem deselect_keys {c : DC V} {desel : Selection} {items : List (Option (Str × Option (List Str)))} (hn : c.selection.keys.Nodup)
    (h : mapE (c.deselectItem desel) c.selection = .ok items) (s : Str) :
    s ∈ Dict.keys (items.filterMap id) ↔ s ∈ c.selection.keys ∧ desel.get? s ≠ some none := by
  rw [Dict.mem_keys_iff]
  simp only [deselect_get? hn h]
  constructor
  · rintro ⟨v, w, hw, hi⟩
    refine ⟨Dict.mem_keys_iff.2 ⟨w, hw⟩, fun h0 => ?_⟩
    simp [DC.deselectItem, h0] at hi
  · rintro ⟨hs, hne⟩
    obtain ⟨w, hw⟩ := Dict.mem_keys_iff.1 hs
    obtain ⟨o, ho, hi⟩ := mapE_ok_all h (Dict.mem_of_get? hw)
    cases hg : desel.get? s with
    | none => exact ⟨w, w, hw, by simp [DC.deselectItem, hg]⟩
    | some v' =>
      cases v' with
      | none => exact absurd hg hne
      | some dk =>
        cases w with
        | some ks => exact ⟨some (ks.filter (fun k => k ∉ dk)), some ks, hw, by simp [DC.deselectItem, hg]⟩
        | none =>
          cases hks : c.keysForSource s with
          | error e => simp [DC.deselectItem, hg, hks] at hi
          | ok ks => exact ⟨some (ks.filter (fun k => k ∉ dk)), none, hw, by simp [DC.deselectItem, hg, hks]⟩

/-- C138. `deselect` with patterns gives collections with the same data, and fails for both or for none. -/
theorem data_deselect {c d : DC V} (h : SameData c d) (hc : NoConflict c.files) (hd : NoConflict d.files) (hrc : KeysReadable c)
    (hrd : KeysReadable d) (hn : c.selection.keys.Nodup) (hn' : d.selection.keys.Nodup) (l : List (Str × Str)) :
    (c.deselect (.globs l) = .error .value ∧ d.deselect (.globs l) = .error .value) ∨
    ∃ c' d', c.deselect (.globs l) = .ok c' ∧ d.deselect (.globs l) = .ok d' ∧ SameData c' d' := by
  have hitems : ∀ {x : DC V} {sel : Selection}, KeysReadable x → x.expandSelection (.globs l) = .ok sel →
      ∃ items, mapE (x.deselectItem sel) x.selection = .ok items := by
    intro x sel hr hs
    apply mapE_exists_ok
    rintro ⟨s, w⟩ -
    cases hg : sel.get? s with
    | none => exact ⟨some (s, w), by simp [DC.deselectItem, hg]⟩
    | some v' =>
      cases v' with
      | none => exact ⟨none, by simp [DC.deselectItem, hg]⟩
      | some dk =>
        cases w with
        | some ks => exact ⟨some (s, some (ks.filter (fun k => k ∉ dk))), by simp [DC.deselectItem, hg]⟩
        | none =>
          obtain ⟨ks, hks⟩ := hr s ((expandGlobs_sources hs s).1 (Dict.mem_keys_iff.2 ⟨_, hg⟩)).1
          exact ⟨some (s, some (ks.filter (fun k => k ∉ dk))), by simp only [DC.deselectItem, hg, hks]⟩
  cases hs : c.expandSelection (.globs l) with
  | error e =>
    have he : c.select (.globs l) = .error e := by unfold DC.select; rw [hs]
    obtain rfl := (select_globs_error hc hrc l).2 e he
    obtain ⟨p, hp, hno⟩ := (select_globs_error hc hrc l).1.1 he
    have he' := (select_globs_error hd hrd l).1.2 ⟨p, hp, (same_pairNothing h p).1 hno⟩
    refine .inl ⟨by unfold DC.deselect; rw [hs], ?_⟩
    cases hs' : d.expandSelection (.globs l) with
    | error e' =>
      unfold DC.select at he'
      rw [hs'] at he'
      unfold DC.deselect
      rw [hs']
      simpa using he'
    | ok sel' =>
      rw [select_ok_iff.2 ⟨sel', hs', filesFor_noConflict hd sel', rfl⟩] at he'
      simp at he'
  | ok sel =>
    obtain ⟨sel', hs'⟩ := expand_succeeds h hc hd hrc hrd hs
    obtain ⟨items, hi⟩ := hitems hrc hs
    obtain ⟨items', hi'⟩ := hitems hrd hs'
    have h1 := deselect_ok_iff.2 ⟨sel, items, hs, hi, filesFor_noConflict hc _, rfl⟩
    have h2 := deselect_ok_iff.2 ⟨sel', items', hs', hi', filesFor_noConflict hd _, rfl⟩
    refine .inr ⟨_, _, h1, h2, restrict_sameData h ?_ ?_ ?_ ?_ ?_⟩
    · intro s hk; exact ((deselect_keys hn hi s).1 hk).1
    · intro s hk; exact ((deselect_keys hn' hi' s).1 hk).1
    · intro s hsc
      have h3 := (mem_allSources.1 hsc).1
      have h4 := (mem_allSources.1 ((sameData_all h s).1 hsc)).1
      rw [deselect_keys hn hi, deselect_keys hn' hi', ne_eq, ne_eq, expandGlobs_whole hs, expandGlobs_whole hs', sameData_all h]
      simp [h3, h4]
    · intro s k
      rw [deselect_exact hn h1, deselect_exact hn' h2, h.keys]
      refine and_congr_right (fun _ => not_congr ?_)
      exact same_matchesOne h l s k
    · intro s k hk
      exact ((deselect_exact hn h1 s k).1 hk).1

/-! ### Trains -/

theorem trains_allSources {c c' : DC V} {tr : TrainRange} (hc : NoConflict c.files) (h : c.selectTrains tr = .ok c') (s : Str) :
    s ∈ c'.allSources ↔ s ∈ c.allSources ∧ ∃ t ∈ c'.trainIds, Covered c s t := by
  obtain ⟨hsub, hkeep, -⟩ := select_trains_files hc h
  have hsel : c'.selection = c.selection := by
    obtain ⟨new, -, rfl⟩ := (selectTrains_ok_iff hc).1 h; rfl
  rw [mem_allSources, mem_allSources, hsel]
  constructor
  · rintro ⟨h1, f, hf, hh⟩
    obtain ⟨t, ht, htf⟩ := (hkeep f (hsub f hf)).1 hf
    exact ⟨⟨h1, f, hsub f hf, hh⟩, t, ht, f, hsub f hf, hh, htf⟩
  · rintro ⟨⟨h1, -⟩, t, ht, f, hf, hh, htf⟩
    exact ⟨h1, f, (hkeep f hf).2 ⟨t, ht, htf⟩, hh⟩

theorem trains_holdsEntries {c c' : DC V} {tr : TrainRange} (hc : NoConflict c.files) (h : c.selectTrains tr = .ok c') {t : Nat}
    (ht : t ∈ c'.trainIds) (b : Bool) (s k : Str) (es : List V) : HoldsEntries c' b s k t es ↔ HoldsEntries c b s k t es := by
  obtain ⟨hsub, hkeep, -⟩ := select_trains_files hc h
  have hm : ∀ f, t ∈ f.trainIds → (f ∈ c'.files ↔ f ∈ c.files) := fun f htf =>
    ⟨hsub f, fun hf => (hkeep f hf).2 ⟨t, ht, htf⟩⟩
  have hcov : Covered c' s t ↔ Covered c s t := by
    constructor
    · rintro ⟨f, hf, hh, ht⟩; exact ⟨f, (hm f ht).1 hf, hh, ht⟩
    · rintro ⟨f, hf, hh, ht⟩; exact ⟨f, (hm f ht).2 hf, hh, ht⟩
  unfold HoldsEntries
  rw [hcov]
  constructor
  · rintro ⟨h1, h2⟩; exact ⟨fun f hf hh htf => h1 f ((hm f htf).2 hf) hh htf, h2⟩
  · rintro ⟨h1, h2⟩; exact ⟨fun f hf hh htf => h1 f ((hm f htf).1 hf) hh htf, h2⟩

/-- C138. `select_trains` takes the same trains from both, or raises the same exception. The results have the same data if the same
sources have a file with one of these trains. -/
theorem data_select_trains {c d : DC V} (h : SameData c d) (hc : Regular c.files) (hd : Regular d.files) (tr : TrainRange) :
    (∃ e, c.selectTrains tr = .error e ∧ d.selectTrains tr = .error e) ∨
    ∃ c' d', c.selectTrains tr = .ok c' ∧ d.selectTrains tr = .ok d' ∧ d'.trainIds = c'.trainIds ∧
      ((∀ s ∈ c.allSources, (∃ t ∈ c'.trainIds, Covered c s t) ↔ ∃ t ∈ c'.trainIds, Covered d s t) → SameData c' d') := by
  cases hs : selectTrainIds c.trainIds tr with
  | error e =>
    refine .inl ⟨e, by unfold DC.selectTrains; rw [hs], ?_⟩
    unfold DC.selectTrains
    rw [← h.trains, hs]
  | ok new =>
    obtain ⟨c', h1, t1⟩ : ∃ c', c.selectTrains tr = .ok c' ∧ c'.trainIds = new := ⟨_, (selectTrains_ok_iff hc.conflict).2 ⟨new, hs, rfl⟩, rfl⟩
    obtain ⟨d', h2, t2⟩ : ∃ d', d.selectTrains tr = .ok d' ∧ d'.trainIds = new :=
      ⟨_, (selectTrains_ok_iff hd.conflict).2 ⟨new, by rw [← h.trains]; exact hs, rfl⟩, rfl⟩
    refine .inr ⟨c', d', h1, h2, by rw [t1, t2], fun hcov => ?_⟩
    have hall : ∀ s, s ∈ c'.allSources ↔ s ∈ d'.allSources := by
      intro s
      rw [trains_allSources hc.conflict h1, trains_allSources hd.conflict h2, ← sameData_all h, t2]
      refine and_congr_right (fun hs => ?_)
      rw [hcov s hs, t1]
    have hfld : ∀ s ∈ c'.allSources, ∀ b k, HasField c' b s k ↔ HasField d' b s k := by
      intro s hs b k
      rw [train_part_fields hc h1 hs, train_part_fields hd h2 ((hall s).1 hs), sameData_field h]
    have hkind : ∀ {x x' : DC V}, Regular x.files → x.selectTrains tr = .ok x' → ∀ s,
        (s ∈ x'.controlSources ↔ s ∈ x'.allSources ∧ s ∈ x.controlSources) ∧
        (s ∈ x'.instrumentSources ↔ s ∈ x'.allSources ∧ s ∈ x.instrumentSources) := by
      intro x x' hr hx s
      obtain ⟨hsub, -, -⟩ := select_trains_files hr.conflict hx
      have hsel : x'.selection = x.selection := by
        obtain ⟨new, -, rfl⟩ := (selectTrains_ok_iff hr.conflict).1 hx; rfl
      rw [mem_allSources, mem_controlSources, mem_controlSources, mem_instrumentSources, mem_instrumentSources, hsel]
      constructor
      · constructor
        · rintro ⟨h1, f, hf, h2⟩; exact ⟨⟨h1, f, hf, .inl h2⟩, h1, f, hsub f hf, h2⟩
        · rintro ⟨⟨h1, f, hf, h2⟩, -, g, hg, h3⟩
          exact ⟨h1, f, hf, (hr.category g hg f (hsub f hf) s (.inl h3) h2).1.1 h3⟩
      · constructor
        · rintro ⟨h1, f, hf, h2⟩; exact ⟨⟨h1, f, hf, .inr h2⟩, h1, f, hsub f hf, h2⟩
        · rintro ⟨⟨h1, f, hf, h2⟩, -, g, hg, h3⟩
          exact ⟨h1, f, hf, (hr.category g hg f (hsub f hf) s (.inr h3) h2).2.1 h3⟩
    refine ⟨by rw [t1, t2], fun s => ?_, fun s => ?_, fun s k => ?_, fun b s k hF t ht es => ?_⟩
    · rw [(hkind hc h1 s).1, (hkind hd h2 s).1, hall, h.control]
    · rw [(hkind hc h1 s).2, (hkind hd h2 s).2, hall, h.instrument]
    · constructor
      · intro hk
        rcases field_of_available hk with hF | hF
        · exact field_available ((hfld s hk.1 _ _).1 hF)
        · exact field_available ((hfld s hk.1 _ _).1 hF)
      · intro hk
        rcases field_of_available hk with hF | hF
        · exact field_available ((hfld s ((hall s).2 hk.1) _ _).2 hF)
        · exact field_available ((hfld s ((hall s).2 hk.1) _ _).2 hF)
    · rw [trains_holdsEntries hc.conflict h1 ht, trains_holdsEntries hd.conflict h2 (by rw [t2, ← t1]; exact ht)]
      refine h.entries b s k ((train_part_fields hc h1 (field_available hF).1 b k).1 hF) t ?_ es
      exact (select_trains_files hc.conflict h1).2.2 t ht

/-! ### Copies -/

theorem copyable_readable {c : DC V} (hc : Copyable c) : KeysReadable c := by
  intro s hs
  obtain ⟨k, -, ks, hks, -⟩ := hc.keys s hs
  exact ⟨ks, hks⟩

theorem single_selection (f : FileAccess V) : (DC.single f).selection.keys.Nodup ∧
    ∀ s ∈ (DC.single f).allSources, (DC.single f).selection.get? s = some none := by
  have hsel : (DC.single f).selection = defaultSelection [f] := rfl
  rw [hsel]
  refine ⟨defaultSelection_nodup _, fun s hs => ?_⟩
  have h1 := (mem_allSources.1 hs).1
  rw [hsel] at h1
  exact (defaultSelection_get? [f] s).1 ((defaultSelection_get? [f] s).2.1 h1)

/-- C138. Selecting from a copy gives the same data as selecting from the original. -/
theorem copy_select {c e : DC V} (hc : Copyable c) (h : CopyOf c e) {l : List (Str × Str)}
    (hstar : ∀ p ∈ l, p.2 = ch! "*" → ∀ s ∈ c.allSources, globMatch p.1 s = true → c.selection.get? s = some none) :
    (c.select (.globs l) = .error .value ∧ e.select (.globs l) = .error .value) ∨
    ∃ c' e', c.select (.globs l) = .ok c' ∧ e.select (.globs l) = .ok e' ∧ SameData c' e' := by
  obtain ⟨he, -⟩ := copies_same hc h
  refine data_select (copy_sameData hc h) hc.writable.noConflict he.writable.noConflict (copyable_readable hc) (copyable_readable he) hstar ?_
  rcases copy_cases hc h with rfl | ⟨d, f, -, -, -, rfl⟩
  · exact hstar
  · exact fun p _ _ s hs _ => (single_selection f).2 s hs

/-- C138. Deselecting from a copy gives the same data as deselecting from the original. -/
theorem copy_deselect {c e : DC V} (hc : Copyable c) (hn : c.selection.keys.Nodup) (h : CopyOf c e) (l : List (Str × Str)) :
    (c.deselect (.globs l) = .error .value ∧ e.deselect (.globs l) = .error .value) ∨
    ∃ c' e', c.deselect (.globs l) = .ok c' ∧ e.deselect (.globs l) = .ok e' ∧ SameData c' e' := by
  obtain ⟨he, -⟩ := copies_same hc h
  refine data_deselect (copy_sameData hc h) hc.writable.noConflict he.writable.noConflict (copyable_readable hc) (copyable_readable he) hn ?_ l
  rcases copy_cases hc h with rfl | ⟨d, f, -, -, -, rfl⟩
  · exact hn
  · exact (single_selection f).1

/-- C138. Selecting trains of a copy gives the same trains as selecting them from the original, and the same data if each source has a
file with one of these trains. -/
theorem copy_select_trains {c e : DC V} (hc : Copyable c) (hr : Regular c.files) (h : CopyOf c e) (tr : TrainRange) :
    (∃ x, c.selectTrains tr = .error x ∧ e.selectTrains tr = .error x) ∨
    ∃ c' e', c.selectTrains tr = .ok c' ∧ e.selectTrains tr = .ok e' ∧ e'.trainIds = c'.trainIds ∧
      ((∀ s ∈ c.allSources, ∃ t ∈ c'.trainIds, Covered c s t) → SameData c' e') := by
  have hsd := copy_sameData hc h
  have hre : Regular e.files := by
    rcases copy_cases hc h with rfl | ⟨d, f, -, -, hf, rfl⟩
    · exact hr
    · refine ⟨List.pairwise_singleton _ _, ?_, ?_, ?_⟩
      · intro f1 h1 g1 h2 s _ _
        obtain rfl := List.mem_singleton.1 h1
        obtain rfl := List.mem_singleton.1 h2
        exact fun _ => Iff.rfl
      · intro f1 h1 s hh
        obtain rfl := List.mem_singleton.1 h1
        obtain ⟨ks, hks, -⟩ := hf.keys s ((full_holds hf s).1 hh)
        exact ⟨ks, hks⟩
      · intro f1 h1 g1 h2 s _ _
        obtain rfl := List.mem_singleton.1 h1
        obtain rfl := List.mem_singleton.1 h2
        exact ⟨Iff.rfl, Iff.rfl⟩
  rcases data_select_trains hsd hr hre tr with h0 | ⟨c', e', h1, h2, h3, h4⟩
  · exact .inl h0
  · refine .inr ⟨c', e', h1, h2, h3, fun hcov => h4 (fun s hs => ⟨fun _ => ?_, fun _ => hcov s hs⟩)⟩
    obtain ⟨t, ht, hct⟩ := hcov s hs
    refine ⟨t, ht, ?_⟩
    rcases copy_cases hc h with rfl | ⟨d, f, hd, -, hf, rfl⟩
    · exact hct
    · obtain ⟨-, j2, j3, j4, -⟩ := copies_same hc hd
      have hsd : s ∈ d.allSources := by
        rw [mem_all] at hs ⊢
        rwa [j3, j4]
      exact ⟨f, by simp [DC.single], field_holds_all hf hsd, by
        rw [hf.trains, j2]; exact (select_trains_files hr.conflict h1).2.2 t ht⟩

/-! ### Examples -/

/-- A run with detector data for trains 1 and 2 only. -/
def exVanish : DC Nat where
  files := [exInst (ch! "a") [1, 2] [0, 2] [2, 1] [10, 11, 12], exCtrl (ch! "c") [1, 2, 3] [0, 1, 2] [1, 1, 1] [31, 32, 33]]
  selection := [(ch! "D:o", none), (ch! "C", none)]
  trainIds := [1, 2, 3]
  ctxCloses := true

/-- A copy of the collection. -/
def copyOnce (c : DC Nat) : R (DC Nat) :=
  (c.writeAs .copy).bind (fun h => (FileAccess.init (ch! "copy") h none).bind (fun f => DC.fromPath (.ok f)))

/-- C138. Why each source needs a file with one of the trains: without trains 1 and 2 the detector is gone from the original, but not
from its copy, which has all sources in one file. -/
theorem copy_select_trains_wrong :
    (exVanish.selectTrains (.idList [3])).map DC.allSources = .ok [ch! "C"] ∧
    ((copyOnce exVanish).bind (fun e => e.selectTrains (.idList [3]))).map DC.allSources = .ok [ch! "C", ch! "D:o"] := by
  decide +kernel

/-- A run with two keys of a control source. -/
def exTwoKeys : DC Nat where
  files := [⟨ch! "a", [1, 2], [ch! "C"], [],
    { trainId := some [1, 2], version := some (ch! "1.0"), sources05 := none, sources10 := some [ch! "CONTROL/C"],
      index := [([ch! "INDEX", ch! "C"], ⟨some [0#64, 1#64], some [1#64, 1#64], none, none⟩)],
      groups := [], datasets := [([ch! "CONTROL", ch! "C", ch! "x", ch! "value"], ⟨[31, 32], [], 0⟩),
        ([ch! "CONTROL", ch! "C", ch! "x", ch! "timestamp"], ⟨[5, 6], [], 0⟩)] }⟩]
  selection := [(ch! "C", none)]
  trainIds := [1, 2]
  ctxCloses := true

/-- C138. Why sources selected with the key pattern `*` must have all their keys: of a collection of one key it brings back the other,
of its copy it does not. -/
theorem copy_select_star_wrong : ∃ c, exTwoKeys.select (.globs [(ch! "C", ch! "x")]) = .ok c ∧
    ((c.select (.globs [(ch! "C", ch! "*")])).bind (fun d => d.keysForSource (ch! "C"))).map List.length = .ok 2 ∧
    (((copyOnce c).bind (fun e => e.select (.globs [(ch! "C", ch! "*")]))).bind (fun d => d.keysForSource (ch! "C"))).map List.length
      = .ok 1 := by
  refine ⟨exTwoKeys.restrict [(ch! "C", some [ch! "x.value"])], ?_, ?_, ?_⟩ <;> decide +kernel

/-- Detector data selected from the example and from any of its copies: the same data. -/
example (e : DC Nat) (h : CopyOf exWrite e) : ∃ c' e', exWrite.select (.globs [(ch! "D*", ch! "data.?")]) = .ok c' ∧
    e.select (.globs [(ch! "D*", ch! "data.?")]) = .ok e' ∧ SameData c' e' ∧ c'.allSources = [ch! "D:o"] := by
  obtain ⟨hc, -⟩ := exWrite_copyable
  have hok : (exWrite.select (.globs [(ch! "D*", ch! "data.?")])).map DC.allSources = .ok [ch! "D:o"] := by decide
  rcases copy_select hc h (l := [(ch! "D*", ch! "data.?")]) (by decide) with ⟨h1, -⟩ | ⟨c', e', h1, h2, h3⟩
  · rw [h1] at hok; cases hok
  · refine ⟨c', e', h1, h2, h3, ?_⟩
    rw [h1] at hok
    exact Except.ok.inj hok

/-- Trains 1 and 3 selected. -/
example (e : DC Nat) (h : CopyOf exWrite e) : ∃ c' e', exWrite.selectTrains (.idList [1, 3]) = .ok c' ∧
    e.selectTrains (.idList [1, 3]) = .ok e' ∧ SameData c' e' ∧ c'.trainIds = [1, 3] := by
  obtain ⟨hc, -⟩ := exWrite_copyable
  have hok : (exWrite.selectTrains (.idList [1, 3])).map DC.trainIds = .ok [1, 3] := by decide
  rcases copy_select_trains hc exWrite_regular h (.idList [1, 3]) with ⟨x, h1, -⟩ | ⟨c', e', h1, h2, h3, h4⟩
  · rw [h1] at hok; cases hok
  · rw [h1] at hok
    have ht : c'.trainIds = [1, 3] := Except.ok.inj hok
    refine ⟨c', e', h1, h2, h4 (fun s hs => ?_), ht⟩
    have e : exWrite.allSources = [ch! "C", ch! "D:o"] := by decide
    rw [e] at hs
    rw [ht]
    refine ⟨1, by decide, ?_⟩
    unfold Covered Holds
    rcases List.mem_cons.1 hs with rfl | hs
    · decide
    · obtain rfl := List.mem_singleton.1 hs
      decide

/-- The control source deselected from the example and from any of its copies. -/
example (e : DC Nat) (h : CopyOf exWrite e) : ∃ c' e', exWrite.deselect (.globs [(ch! "C", ch! "*")]) = .ok c' ∧
    e.deselect (.globs [(ch! "C", ch! "*")]) = .ok e' ∧ SameData c' e' ∧ c'.allSources = [ch! "D:o"] := by
  obtain ⟨hc, -⟩ := exWrite_copyable
  have hok : (exWrite.deselect (.globs [(ch! "C", ch! "*")])).map DC.allSources = .ok [ch! "D:o"] := by decide
  rcases copy_deselect hc (by decide) h [(ch! "C", ch! "*")] with ⟨h1, -⟩ | ⟨c', e', h1, h2, h3⟩
  · rw [h1] at hok; cases hok
  · refine ⟨c', e', h1, h2, h3, ?_⟩
    rw [h1] at hok
    exact Except.ok.inj hok

end KD

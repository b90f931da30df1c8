/- Properties C07-C10: making a collection from files. -/
import Verif.Lemmas.Collection

set_option linter.unusedSimpArgs false

namespace KD
open Spec

variable {V : Type}

theorem fromPaths_ok {opened : List (R (FileAccess V))} {c : DC V} (h : DC.fromPaths opened = .ok c) :
    ∃ files, (∀ f, f ∈ files ↔ (.ok f : R (FileAccess V)) ∈ opened) ∧ DC.make files none none true = .ok c := by
  unfold DC.fromPaths at h
  dsimp only at h
  split at h
  · simp at h
  · refine ⟨_, ?_, h⟩
    intro f
    simp only [List.mem_filterMap]
    constructor
    · rintro ⟨r, hr, e⟩
      cases r with
      | error e' => simp [Except.toOption] at e
      | ok g => simp [Except.toOption] at e; subst e; exact hr
    · intro hf; exact ⟨_, hf, rfl⟩

/-! ### C07 -/

/-- C07. The train IDs of a collection opened from paths are strictly increasing, and are exactly the train IDs of the
files which were opened. -/
theorem open_collection_train_ids {opened : List (R (FileAccess V))} {c : DC V} (h : DC.fromPaths opened = .ok c) :
    c.trainIds.Pairwise (· < ·) ∧ ∀ t, t ∈ c.trainIds ↔ ∃ f, (.ok f : R (FileAccess V)) ∈ opened ∧ t ∈ f.trainIds := by
  obtain ⟨files, h1, h2⟩ := fromPaths_ok h
  obtain ⟨-, rfl⟩ := make_ok_iff.1 h2
  refine ⟨sortedSet_pairwise _, ?_⟩
  intro t
  simp only [Option.getD_none, mem_sortedSet, List.mem_flatMap, h1]

/-- Two files with interleaved trains. -/
example : (DC.fromPaths [.ok (FileAccess.mk (ch! "a") [1, 5] [ch! "S"] [] ⟨none, none, none, none, [], [], []⟩),
    .error .os,
    .ok (FileAccess.mk (ch! "b") [2, 5] [ch! "T"] [] (⟨none, none, none, none, [], [], []⟩ : H5File Nat))]).map
      DC.trainIds = .ok [1, 2, 5] := by decide

/-! ### C08 -/

/-- C08. Making a collection raises ValueError exactly when some source is present in two of its files
which share a train ID, whatever selection and train IDs are given; it raises nothing else. -/
theorem conflict_exact (files : List (FileAccess V)) (sel : Option Selection) (ts : Option (List Nat)) (b : Bool) :
    (DC.make files sel ts b = .error .value ↔
      ∃ (i j : Nat) (f g : FileAccess V) (source : Str) (t : Nat), i < j ∧ files[i]? = some f ∧ files[j]? = some g ∧
        Holds f source ∧ Holds g source ∧ t ∈ f.trainIds ∧ t ∈ g.trainIds) ∧
    (∀ e, DC.make files sel ts b = .error e → e = .value) := by
  refine ⟨?_, fun e h => (make_error_iff.1 h).2⟩
  rw [make_error_iff]
  simp only [and_true, NoConflict, List.pairwise_iff_getElem, Compatible, not_forall, not_not]
  constructor
  · rintro ⟨i, j, hi, hj, hij, s, t, h1, h2, h3, h4⟩
    exact ⟨i, j, files[i], files[j], s, t, hij, by simp [hi], by simp [hj], h1, h2, h3, h4⟩
  · rintro ⟨i, j, f, g, s, t, hij, hf, hg, h1, h2, h3, h4⟩
    obtain ⟨hi, rfl⟩ := List.getElem?_eq_some_iff.1 hf
    obtain ⟨hj, rfl⟩ := List.getElem?_eq_some_iff.1 hg
    exact ⟨i, j, hi, hj, hij, s, t, h1, h2, h3, h4⟩

/-- C08. In every collection a user can make, the files do not conflict. -/
theorem reachable_noConflict {c : DC V} (h : Reachable c) : NoConflict c.files := by
  cases h with
  | opened h =>
    obtain ⟨files, -, h2⟩ := fromPaths_ok h
    obtain ⟨h3, rfl⟩ := make_ok_iff.1 h2
    exact h3
  | openedOne h =>
    unfold DC.fromPath at h
    split at h
    · simp at h
    · obtain ⟨h3, rfl⟩ := make_ok_iff.1 h; exact h3
  | select hc h =>
    unfold DC.select at h
    split at h
    · simp at h
    · obtain ⟨h3, rfl⟩ := make_ok_iff.1 h; exact h3
  | deselect hc h =>
    unfold DC.deselect at h
    split at h
    · simp at h
    · split at h
      · simp at h
      · obtain ⟨h3, rfl⟩ := make_ok_iff.1 h; exact h3
  | selectTrains hc h =>
    unfold DC.selectTrains at h
    split at h
    · simp at h
    · obtain ⟨h3, rfl⟩ := make_ok_iff.1 h; exact h3
  | union hc ho h =>
    unfold DC.union at h
    obtain ⟨h3, rfl⟩ := make_ok_iff.1 h
    exact h3

/-- C08. So in a collection there is at most one place (position in the list of files) with the data of a given source
and train. -/
theorem at_most_one_file {c : DC V} (h : Reachable c) {i j : Nat} {f g : FileAccess V} {source : Str} {t : Nat}
    (hi : c.files[i]? = some f) (hj : c.files[j]? = some g) (hf : Holds f source) (hg : Holds g source)
    (htf : t ∈ f.trainIds) (htg : t ∈ g.trainIds) : i = j := by
  have hn := reachable_noConflict h
  rw [NoConflict, List.pairwise_iff_getElem] at hn
  obtain ⟨hi', rfl⟩ := List.getElem?_eq_some_iff.1 hi
  obtain ⟨hj', rfl⟩ := List.getElem?_eq_some_iff.1 hj
  rcases Nat.lt_trichotomy i j with hlt | heq | hlt
  · exact absurd htg (hn i j hi' hj' hlt source t hf hg htf)
  · exact heq
  · exact absurd htf (hn j i hj' hi' hlt source t hg hf htg)

/-- A file for the examples. -/
def exF (name : Str) (tids : List Nat) (ctrl : List Str) : FileAccess Nat :=
  ⟨name, tids, ctrl, [], ⟨none, none, none, none, [], [], []⟩⟩

example : DC.make [exF (ch! "a") [1, 2] [ch! "S"], exF (ch! "b") [2, 3] [ch! "T", ch! "S"]] none none true
    = .error .value := by decide
example : (DC.make [exF (ch! "a") [1, 2] [ch! "S"], exF (ch! "b") [2, 3] [ch! "T"], exF (ch! "c") [3] [ch! "S"]]
    none none true).map DC.trainIds = .ok [1, 2, 3] := by decide

/-! ### C09 -/

/-- C09. The sources of a collection are the selected names which some file of it lists in that category. -/
theorem sources_exact (c : DC V) (s : Str) :
    (s ∈ c.controlSources ↔ s ∈ c.selection.keys ∧ ∃ f ∈ c.files, s ∈ f.controlSources) ∧
    (s ∈ c.instrumentSources ↔ s ∈ c.selection.keys ∧ ∃ f ∈ c.files, s ∈ f.instrumentSources) ∧
    (s ∈ c.allSources ↔ s ∈ c.controlSources ∨ s ∈ c.instrumentSources) := by
  refine ⟨mem_controlSources, mem_instrumentSources, ?_⟩
  simp [DC.allSources]

/-- C09. After opening files, everything in them is selected: the sources are those of the files, with all keys of the
first file which has the source. -/
theorem open_sources_selected {opened : List (R (FileAccess V))} {c : DC V} (h : DC.fromPaths opened = .ok c)
    (s : Str) :
    (s ∈ c.controlSources ↔ ∃ f, (.ok f : R (FileAccess V)) ∈ opened ∧ s ∈ f.controlSources) ∧
    (s ∈ c.instrumentSources ↔ ∃ f, (.ok f : R (FileAccess V)) ∈ opened ∧ s ∈ f.instrumentSources) ∧
    (∀ f, (c.files.filter (fun f => s ∈ f.controlSources ∨ s ∈ f.instrumentSources)).head? = some f →
      c.keysForSource s = f.getKeys s) := by
  obtain ⟨files, h1, h2⟩ := fromPaths_ok h
  obtain ⟨-, rfl⟩ := make_ok_iff.1 h2
  simp only [Option.getD_none]
  have hd := defaultSelection_get? files s
  refine ⟨?_, ?_, ?_⟩
  · rw [mem_controlSources]
    simp only [hd.2]
    constructor
    · rintro ⟨-, f, hf, hs⟩; exact ⟨f, (h1 f).1 hf, hs⟩
    · rintro ⟨f, hf, hs⟩; exact ⟨⟨f, (h1 f).2 hf, Or.inl hs⟩, f, (h1 f).2 hf, hs⟩
  · rw [mem_instrumentSources]
    simp only [hd.2]
    constructor
    · rintro ⟨-, f, hf, hs⟩; exact ⟨f, (h1 f).1 hf, hs⟩
    · rintro ⟨f, hf, hs⟩; exact ⟨⟨f, (h1 f).2 hf, Or.inr hs⟩, f, (h1 f).2 hf, hs⟩
  · intro f hf
    have hm := List.mem_of_mem_head? hf
    simp only [List.mem_filter, decide_eq_true_eq] at hm
    have := hd.1 ⟨f, hm.1, hm.2⟩
    simp only [DC.keysForSource, this, DC.sourceIndex, hf]

/-! ### C10 -/

/-- C10. Opening several paths uses exactly the paths which open without error, in order. -/
theorem open_paths_files {opened : List (R (FileAccess V))} {c : DC V} (h : DC.fromPaths opened = .ok c) :
    c.files.map .ok = opened.filter (fun r => match r with | .ok _ => true | .error _ => false) := by
  unfold DC.fromPaths at h
  dsimp only at h
  split at h
  · simp at h
  · next hne =>
    obtain ⟨-, rfl⟩ := make_ok_iff.1 h
    simp only
    clear h hne
    induction opened with
    | nil => rfl
    | cons r l ih =>
      cases r with
      | ok f => simp [Except.toOption, List.filterMap_cons, List.filter_cons]; exact ih
      | error e => simp [Except.toOption, List.filterMap_cons, List.filter_cons]; exact ih

/-- C10. Opening fails when no path opens, with an exception, or when the files conflict, with ValueError; and in no
other case. -/
theorem open_paths_error (opened : List (R (FileAccess V))) :
    ((∀ f, (.ok f : R (FileAccess V)) ∉ opened) → DC.fromPaths opened = .error .generic) ∧
    ((∃ f, (.ok f : R (FileAccess V)) ∈ opened) →
      (∃ c, DC.fromPaths opened = .ok c) ∨
        (DC.fromPaths opened = .error .value ∧
          ∃ f g source t, (.ok f : R (FileAccess V)) ∈ opened ∧ (.ok g : R (FileAccess V)) ∈ opened ∧
            Holds f source ∧ Holds g source ∧ t ∈ f.trainIds ∧ t ∈ g.trainIds)) := by
  have hmem : ∀ f, f ∈ opened.filterMap Except.toOption ↔
      (.ok f : R (FileAccess V)) ∈ opened := by
    intro f
    simp only [List.mem_filterMap]
    constructor
    · rintro ⟨r, hr, e⟩
      cases r with
      | error e' => simp [Except.toOption] at e
      | ok g => simp [Except.toOption] at e; subst e; exact hr
    · intro hf; exact ⟨_, hf, rfl⟩
  unfold DC.fromPaths
  dsimp only
  generalize opened.filterMap Except.toOption = files at hmem ⊢
  constructor
  · intro h
    rw [if_pos]
    rw [List.isEmpty_iff, List.eq_nil_iff_forall_not_mem]
    intro f hf
    exact h f ((hmem f).1 hf)
  · rintro ⟨f, hf⟩
    rw [if_neg]
    · cases hm : DC.make files none none true with
      | ok c => exact Or.inl ⟨c, rfl⟩
      | error e =>
        right
        have hev := (make_error_iff.1 hm).2
        subst hev
        obtain ⟨i, j, f, g, s, t, -, h1, h2, h3⟩ := (conflict_exact files none none true).1.1 hm
        exact ⟨rfl, f, g, s, t, (hmem f).1 (List.mem_of_getElem? h1), (hmem g).1 (List.mem_of_getElem? h2), h3⟩
    · rw [List.isEmpty_iff]
      intro e
      have := (hmem f).2 hf
      rw [e] at this; simp at this

/-- C10. Opening a single file reports its error, and otherwise gives a collection of that one file. -/
theorem open_one_path (opened : R (FileAccess V)) :
    (∀ e, opened = .error e → DC.fromPath opened = .error e) ∧
    (∀ f, opened = .ok f → ∃ c, DC.fromPath opened = .ok c ∧ c.files = [f] ∧
      c.trainIds.Pairwise (· < ·) ∧ (∀ t, t ∈ c.trainIds ↔ t ∈ f.trainIds) ∧
      (∀ s, s ∈ c.controlSources ↔ s ∈ f.controlSources) ∧ (∀ s, s ∈ c.instrumentSources ↔ s ∈ f.instrumentSources) ∧
      c.enter = .ok c) := by
  constructor
  · rintro e rfl; rfl
  · rintro f rfl
    have hn : NoConflict [f] := List.pairwise_singleton _ _
    have hm : DC.fromPath (.ok f) = .ok ⟨[f], defaultSelection [f], sortedSet ([f].flatMap (fun f => f.trainIds)), true⟩ := by
      simp only [DC.fromPath, make_ok_iff]
      exact ⟨hn, rfl⟩
    refine ⟨_, hm, rfl, sortedSet_pairwise _, ?_, ?_, ?_, rfl⟩
    · intro t; simp [mem_sortedSet]
    · intro s
      rw [mem_controlSources]
      simp [(defaultSelection_get? [f] s).2, Holds]
      exact fun h => Or.inl h
    · intro s
      rw [mem_instrumentSources]
      simp [(defaultSelection_get? [f] s).2, Holds]
      exact fun h => Or.inr h

end KD

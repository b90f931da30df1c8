/-
C13 and C15, exactly: which pairs of source and key every selection has which succeeds.
-/
import Verif.Props.Selection

set_option linter.unusedSimpArgs false

namespace KD
open Spec

variable {V : Type}

theorem matches_star (k : Str) : globMatch ch! "*" k = true := by
  have := (globMatch_star_append [] [] k) (by decide)
  simpa using this

/-- What the expanded selection has, for patterns. -/
theorem expandGlobs_get? {c : DC V} {l : List (Str × Str)} {sel : Selection} (h : c.expandSelection (.globs l) = .ok sel) (s : Str) :
    (sel.get? s = some none ↔ s ∈ c.allSources ∧ Starred l s) ∧
    (∀ k, (∃ ks, sel.get? s = some (some ks) ∧ k ∈ ks) ↔ ¬ Starred l s ∧ Available c s k ∧ MatchesOne c l s k) := by
  obtain ⟨sels, hm, rfl, hmem⟩ := expandGlobs_ok h
  simp only [unionSelections_get?]
  have hnone : (s, none) ∈ sels.flatten ↔ s ∈ c.allSources ∧ Starred l s := by
    constructor
    · intro hin
      obtain ⟨p, hp, hs, hg, hgs⟩ := (hmem _ _).1 hin
      rcases (globSource_some hgs).2 with ⟨hst, -⟩ | ⟨-, ks, keys, -, hv, -⟩
      · exact ⟨hs, p, hp, hst, hg⟩
      · simp at hv
    · rintro ⟨hs, p, hp, hst, hg⟩
      exact (hmem s none).2 ⟨p, hp, hs, hg, by rw [hst]; exact globSource_star⟩
  refine ⟨?_, fun k => ?_⟩
  · constructor
    · rintro ⟨-, he⟩
      by_cases hin : (s, none) ∈ sels.flatten
      · exact hnone.1 hin
      · rw [if_neg hin] at he
        simp at he
    · intro h
      have hin := hnone.2 h
      exact ⟨⟨_, hin⟩, by rw [if_pos hin]⟩
  · constructor
    · rintro ⟨ks, ⟨-, he⟩, hk⟩
      by_cases hin : (s, none) ∈ sels.flatten
      · rw [if_pos hin] at he
        simp at he
      · rw [if_neg hin] at he
        obtain rfl := Option.some.inj he
        obtain ⟨ks, hks, hk⟩ := mem_union_keys.1 hk
        obtain ⟨p, hp, hs, hg, hgs⟩ := (hmem _ _).1 hks
        rcases (globSource_some hgs).2 with ⟨-, hv⟩ | ⟨-, ks', keys, h2, hv, -, h3⟩
        · simp at hv
        · obtain rfl := Option.some.inj hv
          exact ⟨fun hst => hin (hnone.2 ⟨hs, hst⟩), ⟨hs, ks', h2, ((h3 k).1 hk).1⟩, p, hp, hg, ((h3 k).1 hk).2⟩
    · rintro ⟨hst, ⟨hs, ks, hks, hk⟩, p, hp, hg, hkm⟩
      have hin : (s, none) ∉ sels.flatten := fun hin => hst (hnone.1 hin).2
      have hp2 : p.2 ≠ ch! "*" := fun e => hst ⟨p, hp, e, hg⟩
      obtain ⟨keys, h2, h3⟩ := globSource_keys hp2 hks
      have hkk : k ∈ keys := (h2 k).2 ⟨hk, hkm⟩
      have hne : keys ≠ [] := by rintro rfl; simp at hkk
      rw [if_neg hne] at h3
      have hin2 : (s, some keys) ∈ sels.flatten := (hmem _ _).2 ⟨p, hp, hs, hg, h3⟩
      exact ⟨_, ⟨⟨_, hin2⟩, by rw [if_neg hin]⟩, mem_union_keys.2 ⟨keys, hin2, hkk⟩⟩

theorem available_file {c : DC V} (hk : SameKeys c.files) {s k : Str} :
    (∃ f, (c.sourceIndex s).head? = some f ∧ FileHasKey f s k) ↔ ∃ f ∈ c.files, Holds f s ∧ FileHasKey f s k := by
  constructor
  · rintro ⟨f, hf, hkey⟩
    obtain ⟨h1, h2⟩ := mem_sourceIndex.1 (List.mem_of_mem_head? hf)
    exact ⟨f, h1, h2, hkey⟩
  · rintro ⟨f, hf, hh, hkey⟩
    obtain ⟨g, hg, hgc, hgs⟩ := head?_sourceIndex ⟨f, hf, hh⟩
    exact ⟨g, hg, (hk f hf g hgc s hh hgs k).1 hkey⟩

/-- C13, exactly: what is available after a selection which was not before. -/
theorem select_brings_back_iff {c d : DC V} {arg : SelArg} (hk : SameKeys c.files) (h : c.select arg = .ok d) {s k : Str}
    (hnot : ¬ Available c s k) : Available d s k ↔ BroughtBack c arg s k := by
  obtain ⟨sel, h1, -, rfl⟩ := select_ok_iff.1 h
  rw [available_restrict]
  cases arg with
  | globs l =>
    obtain ⟨g1, g2⟩ := expandGlobs_get? h1 s
    constructor
    · rintro ⟨v, hv, ⟨rfl, hf⟩ | ⟨ks, rfl, hkk, -⟩⟩
      · exact ⟨(g1.1 hv).1, (g1.1 hv).2, (available_file hk).1 hf⟩
      · exact absurd ((g2 k).1 ⟨ks, hv, hkk⟩).2.1 hnot
    · rintro ⟨hs, hst, hf⟩
      exact ⟨none, g1.2 ⟨hs, hst⟩, Or.inl ⟨rfl, (available_file hk).2 hf⟩⟩
  | dict l =>
    obtain ⟨h2, h3, h4, h5⟩ := expandDict_ok (by simp) (show foldE c.expandDictItem [] l = .ok sel from h1)
    constructor
    · rintro ⟨v, hv, ⟨rfl, -⟩ | ⟨ks, rfl, hkk, -⟩⟩
      · obtain ⟨ks, hks⟩ := h2 s none hv
        simp at hks
      · rcases (h5 s k).1 ⟨ks, hv, hkk⟩ with ⟨ks', h, -⟩ | h
        · simp at h
        · exact h
    · rintro ⟨kv, hkv, rfl, hkk⟩
      obtain ⟨ks, j1, j2⟩ := (h5 kv.1 k).2 (Or.inr ⟨kv, hkv, rfl, hkk⟩)
      exact ⟨_, j1, Or.inr ⟨ks, rfl, j2, (mem_allSources.1 (h3 kv hkv).1).2⟩⟩
  | other =>
    obtain rfl := Except.ok.inj h1
    simp [BroughtBack]

/-- C13, exactly: what stays available after a selection. -/
theorem select_keeps_iff {c d : DC V} {arg : SelArg} (hx : SelectedKeysExist c) (h : c.select arg = .ok d) {s k : Str}
    (ha : Available c s k) : Available d s k ↔ NamesPair c arg s k := by
  obtain ⟨sel, h1, -, rfl⟩ := select_ok_iff.1 h
  rw [available_restrict]
  cases arg with
  | globs l =>
    obtain ⟨g1, g2⟩ := expandGlobs_get? h1 s
    constructor
    · rintro ⟨v, hv, ⟨rfl, hf⟩ | ⟨ks, rfl, hkk, -⟩⟩
      · obtain ⟨-, p, hp, hst, hg⟩ := g1.1 hv
        exact ⟨p, hp, hg, Or.inl (by rw [hst]; exact matches_star k)⟩
      · exact ((g2 k).1 ⟨ks, hv, hkk⟩).2.2
    · intro hm
      obtain ⟨hkeys, hfile⟩ := mem_allSources.1 ha.1
      by_cases hst : Starred l s
      · refine ⟨none, g1.2 ⟨ha.1, hst⟩, Or.inl ⟨rfl, ?_⟩⟩
        obtain ⟨w, hw, ⟨-, h⟩ | ⟨ks, rfl, hkk, f, hf, hh⟩⟩ := available_iff.1 ha
        · exact h
        · obtain ⟨g, hg', hgc, hgs⟩ := head?_sourceIndex ⟨f, hf, hh⟩
          exact ⟨g, hg', hx s ks hw k hkk g hgc hgs⟩
      · obtain ⟨ks, j1, j2⟩ := (g2 k).2 ⟨hst, ha, hm⟩
        exact ⟨_, j1, Or.inr ⟨ks, rfl, j2, hfile⟩⟩
  | dict l =>
    obtain ⟨h2, h3, h4, h5⟩ := expandDict_ok (by simp) (show foldE c.expandDictItem [] l = .ok sel from h1)
    constructor
    · rintro ⟨v, hv, ⟨rfl, -⟩ | ⟨ks, rfl, hkk, -⟩⟩
      · obtain ⟨ks, hks⟩ := h2 s none hv
        simp at hks
      · rcases (h5 s k).1 ⟨ks, hv, hkk⟩ with ⟨ks', h, -⟩ | h
        · simp at h
        · exact h
    · rintro ⟨kv, hkv, rfl, hkk⟩
      obtain ⟨ks, j1, j2⟩ := (h5 kv.1 k).2 (Or.inr ⟨kv, hkv, rfl, hkk⟩)
      exact ⟨_, j1, Or.inr ⟨ks, rfl, j2, (mem_allSources.1 (h3 kv hkv).1).2⟩⟩
  | other =>
    obtain rfl := Except.ok.inj h1
    simp [NamesPair]

theorem expand_keys {c : DC V} {arg : SelArg} {sel : Selection} (h : c.expandSelection arg = .ok sel) {s k : Str} (ha : Available c s k) :
    NamesPair c arg s k ↔ ∃ v, sel.get? s = some v ∧ (v = none ∨ ∃ ks, v = some ks ∧ k ∈ ks) := by
  cases arg with
  | globs l =>
    obtain ⟨g1, g2⟩ := expandGlobs_get? h s
    constructor
    · intro hm
      by_cases hst : Starred l s
      · exact ⟨none, g1.2 ⟨ha.1, hst⟩, Or.inl rfl⟩
      · obtain ⟨ks, j1, j2⟩ := (g2 k).2 ⟨hst, ha, hm⟩
        exact ⟨_, j1, Or.inr ⟨ks, rfl, j2⟩⟩
    · rintro ⟨v, hv, rfl | ⟨ks, rfl, hkk⟩⟩
      · obtain ⟨-, p, hp, hst, hg⟩ := g1.1 hv
        exact ⟨p, hp, hg, Or.inl (by rw [hst]; exact matches_star k)⟩
      · exact ((g2 k).1 ⟨ks, hv, hkk⟩).2.2
  | dict l =>
    obtain ⟨h2, h3, h4, h5⟩ := expandDict_ok (by simp) (show foldE c.expandDictItem [] l = .ok sel from h)
    constructor
    · rintro ⟨kv, hkv, rfl, hkk⟩
      obtain ⟨ks, j1, j2⟩ := (h5 kv.1 k).2 (Or.inr ⟨kv, hkv, rfl, hkk⟩)
      exact ⟨_, j1, Or.inr ⟨ks, rfl, j2⟩⟩
    · rintro ⟨v, hv, rfl | ⟨ks, rfl, hkk⟩⟩
      · obtain ⟨ks, hks⟩ := h2 s none hv
        simp at hks
      · rcases (h5 s k).1 ⟨ks, hv, hkk⟩ with ⟨ks', h, -⟩ | h
        · simp at h
        · exact h
  | other =>
    obtain rfl := Except.ok.inj h
    simp [NamesPair]

/-- C15, exactly: after `deselect`, a pair is available just when it was before and the argument does not name it. This holds for all
collections, also if keys were selected which do not exist. -/
theorem deselect_exact {c d : DC V} {arg : SelArg} (hn : c.selection.keys.Nodup) (h : c.deselect arg = .ok d) (s k : Str) :
    Available d s k ↔ Available c s k ∧ ¬ NamesPair c arg s k := by
  obtain ⟨desel, items, hd1, hd2, -, rfl⟩ := deselect_ok_iff.1 h
  rw [and_congr_right (fun ha => not_congr (expand_keys hd1 ha)), available_restrict]
  simp only [deselect_get? hn hd2]
  cases hg : desel.get? s with
  | none =>
    simp only [DC.deselectItem, hg, reduceCtorEq, false_and, exists_false, not_false_eq_true, and_true,
      available_iff, Except.ok.injEq, Option.some.injEq, Prod.mk.injEq, true_and]
    constructor
    · rintro ⟨v, ⟨w, hw, rfl⟩, h⟩; exact ⟨_, hw, h⟩
    · rintro ⟨v, hw, h⟩; exact ⟨_, ⟨v, hw, rfl⟩, h⟩
  | some v' =>
    cases v' with
    | none => simp [DC.deselectItem, hg]
    | some dk =>
      simp only [DC.deselectItem, hg, Option.some.injEq, exists_eq_left', reduceCtorEq, false_and, false_or]
      constructor
      · rintro ⟨v, ⟨w, hw, hi⟩, ha⟩
        split at hi
        · simp at hi
        · next ks hks =>
          simp at hi; subst hi
          simp only [reduceCtorEq, false_and, Option.some.injEq, exists_eq_left', false_or, List.mem_filter,
            decide_eq_true_eq] at ha
          obtain ⟨⟨hk1, hk2⟩, f, hf, hh⟩ := ha
          refine ⟨⟨mem_allSources.2 ⟨Dict.mem_keys_iff.2 ⟨w, hw⟩, f, hf, hh⟩, ?_⟩, by simpa using hk2⟩
          cases w with
          | none => exact ⟨ks, by simpa using hks, hk1⟩
          | some ks' =>
            simp at hks; subst hks
            exact ⟨ks'.dedup, by simp only [DC.keysForSource, hw], List.mem_dedup.2 hk1⟩
      · rintro ⟨⟨hsa, ks, hks, hk⟩, hk2⟩
        obtain ⟨hkeys, hfile⟩ := mem_allSources.1 hsa
        obtain ⟨w, hw⟩ := Dict.mem_keys_iff.1 hkeys
        cases w with
        | none =>
          exact ⟨some (ks.filter (fun k => k ∉ dk)), ⟨none, hw, by simp only [hks]⟩,
            Or.inr ⟨_, rfl, by simp [hk, hk2], hfile⟩⟩
        | some ks' =>
          simp only [DC.keysForSource, hw, Except.ok.injEq] at hks
          subst hks
          exact ⟨some (ks'.filter (fun k => k ∉ dk)), ⟨some ks', hw, rfl⟩,
            Or.inr ⟨_, rfl, by simp [List.mem_dedup.1 hk, hk2], hfile⟩⟩

theorem expand_sources {c : DC V} {arg : SelArg} {sel : Selection} (h : c.expandSelection arg = .ok sel) {s : Str} {v : Option (List Str)}
    (hv : sel.get? s = some v) : s ∈ c.allSources := by
  cases arg with
  | globs l =>
    obtain ⟨sels, -, rfl, hmem⟩ := expandGlobs_ok h
    rw [unionSelections_get?] at hv
    obtain ⟨⟨w, hw⟩, -⟩ := hv
    obtain ⟨p, -, hs, -⟩ := (hmem _ _).1 hw
    exact hs
  | dict l =>
    obtain ⟨h2, h3, h4, h5⟩ := expandDict_ok (by simp) (show foldE c.expandDictItem [] l = .ok sel from h)
    have := (h4 s).1 (Dict.mem_keys_iff.2 ⟨v, hv⟩)
    simp only [Dict.keys, List.map_nil, List.not_mem_nil, false_or] at this
    obtain ⟨kv, hkv, rfl⟩ := List.mem_map.1 this
    exact (h3 kv hkv).1
  | other =>
    obtain rfl := Except.ok.inj h
    simp at hv

/-- C15: `deselect` fails just when `select` with the same argument does, with the same exception. -/
theorem deselect_error_iff {c : DC V} (hc : NoConflict c.files) (hr : KeysReadable c) (arg : SelArg) (e : PyErr) :
    c.deselect arg = .error e ↔ c.select arg = .error e := by
  cases hx : c.expandSelection arg with
  | error e' => simp [DC.deselect, DC.select, hx]
  | ok sel =>
    have h1 : c.select arg = .ok (c.restrict sel) := select_ok_iff.2 ⟨sel, hx, filesFor_noConflict hc _, rfl⟩
    obtain ⟨items, hi⟩ : ∃ items, mapE (c.deselectItem sel) c.selection = .ok items := by
      apply mapE_exists_ok
      rintro ⟨s, w⟩ -
      unfold DC.deselectItem
      dsimp only
      cases hg : sel.get? s with
      | none => exact ⟨_, rfl⟩
      | some v =>
        cases v with
        | none => exact ⟨_, rfl⟩
        | some dk =>
          cases w with
          | some ks => exact ⟨_, rfl⟩
          | none =>
            obtain ⟨ks, hks⟩ := hr s (expand_sources hx hg)
            simp only [hks]
            exact ⟨_, rfl⟩
    have h2 : c.deselect arg = .ok (c.restrict (items.filterMap id)) :=
      deselect_ok_iff.2 ⟨sel, items, hx, hi, filesFor_noConflict hc _, rfl⟩
    rw [h1, h2]
    simp

/-- A selection with fewer keys, from which all kinds of arguments are selected. -/
example : let c := exSel.restrict [(ch! "S", some [ch! "x.value"])]
    ¬ NamesPair c (.globs [(ch! "S", ch! "y")]) (ch! "S") (ch! "x.value") ∧
    BroughtBack c (.globs [(ch! "S", ch! "*")]) (ch! "S") (ch! "x.timestamp") ∧ (c.select (.globs [(ch! "S", ch! "*")])).isOk = true ∧
    BroughtBack c (.dict [(ch! "S", [ch! "x.timestamp"])]) (ch! "S") (ch! "x.timestamp") := by
  refine ⟨?_, ⟨by decide, ⟨_, List.mem_singleton.2 rfl, rfl, by decide⟩, ?_⟩, by decide, ⟨_, List.mem_singleton.2 rfl, rfl, by simp⟩⟩
  · rintro ⟨p, hp, -, hm | ⟨-, -, key', he, hm⟩⟩
    · obtain rfl := List.mem_singleton.1 hp
      exact absurd hm (by decide)
    · obtain rfl := List.mem_singleton.1 hp
      have : key' = ch! "x" := by
        have h1 := congrArg List.length he
        have h2 := congrArg (List.take 1) he
        simp at h1 h2
        have : key'.length = 1 := by omega
        obtain ⟨a, rfl⟩ := List.length_eq_one_iff.1 this
        simpa using h2.symm
      rw [this] at hm
      exact absurd hm (by decide)
  · refine ⟨exSel.files.head (by decide), by decide, by unfold Holds; decide, ?_⟩
    exact ⟨[ch! "x.value", ch! "x.timestamp"], by decide, by decide⟩

end KD

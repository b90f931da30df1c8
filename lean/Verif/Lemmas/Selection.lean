/- Helper lemmas for selecting sources and keys. -/
import Verif.Lemmas.Collection

set_option linter.unusedSimpArgs false

namespace KD
open Spec

variable {V : Type}

/-- The collection made by a selection from `c`. -/
def DC.restrict (c : DC V) (sel : Selection) : DC V := ⟨c.filesFor sel, sel, c.trainIds, false⟩

theorem mem_filesFor {c : DC V} {sel : Selection} {f : FileAccess V} :
    f ∈ c.filesFor sel ↔ f ∈ c.files ∧ ∃ s ∈ sel.keys, Holds f s := by
  simp only [DC.filesFor, FileAccess.allSources, List.mem_filter, List.any_eq_true, List.mem_append, Holds,
    decide_eq_true_eq]
  constructor
  · rintro ⟨h1, s, h2, h3⟩; exact ⟨h1, s, h3, h2⟩
  · rintro ⟨h1, s, h2, h3⟩; exact ⟨h1, s, h3, h2⟩

theorem filesFor_noConflict {c : DC V} (h : NoConflict c.files) (sel : Selection) : NoConflict (c.filesFor sel) :=
  List.Pairwise.sublist List.filter_sublist h

theorem restrict_sourceIndex {c : DC V} {sel : Selection} {s : Str} (hs : s ∈ sel.keys) :
    (c.restrict sel).sourceIndex s = c.sourceIndex s := by
  simp only [DC.restrict, DC.sourceIndex, DC.filesFor, List.filter_filter]
  apply List.filter_congr
  intro f _
  by_cases h : s ∈ f.controlSources ∨ s ∈ f.instrumentSources
  · have : f.allSources.any (fun s => decide (s ∈ sel.keys)) = true := by
      simp only [List.any_eq_true, decide_eq_true_eq, FileAccess.allSources, List.mem_append]
      exact ⟨s, h, hs⟩
    simp [h, this]
  · simp [h]

theorem restrict_allSources {c : DC V} {sel : Selection} {s : Str} :
    s ∈ (c.restrict sel).allSources ↔ s ∈ sel.keys ∧ ∃ f ∈ c.files, Holds f s := by
  rw [mem_allSources]
  constructor
  · rintro ⟨h1, f, hf, h2⟩; exact ⟨h1, f, (mem_filesFor.1 hf).1, h2⟩
  · rintro ⟨h1, f, hf, h2⟩; exact ⟨h1, f, mem_filesFor.2 ⟨hf, s, h1, h2⟩, h2⟩

theorem head?_sourceIndex {c : DC V} {s : Str} (h : ∃ f ∈ c.files, Holds f s) :
    ∃ f, (c.sourceIndex s).head? = some f ∧ f ∈ c.files ∧ Holds f s := by
  obtain ⟨f, hf, hs⟩ := h
  have hm : f ∈ c.sourceIndex s := mem_sourceIndex.2 ⟨hf, hs⟩
  cases hh : (c.sourceIndex s).head? with
  | none => rw [List.head?_eq_none_iff] at hh; rw [hh] at hm; simp at hm
  | some g => exact ⟨g, rfl, mem_sourceIndex.1 (List.mem_of_mem_head? hh)⟩

/-- Availability in terms of the selection and the first file having the source. -/
theorem available_iff {c : DC V} {s k : Str} :
    Available c s k ↔ ∃ v, c.selection.get? s = some v ∧
      ((v = none ∧ ∃ f, (c.sourceIndex s).head? = some f ∧ FileHasKey f s k) ∨
       (∃ ks, v = some ks ∧ k ∈ ks ∧ ∃ f ∈ c.files, Holds f s)) := by
  unfold Available
  rw [mem_allSources]
  constructor
  · rintro ⟨⟨h1, h2⟩, ks, h3, h4⟩
    obtain ⟨v, hv⟩ := Dict.mem_keys_iff.1 h1
    refine ⟨v, hv, ?_⟩
    simp only [DC.keysForSource, hv] at h3
    cases v with
    | none =>
      left
      refine ⟨rfl, ?_⟩
      obtain ⟨f, hf, -⟩ := head?_sourceIndex h2
      simp only [hf] at h3
      exact ⟨f, hf, ks, h3, h4⟩
    | some ks' =>
      right
      simp at h3; subst h3
      exact ⟨ks', rfl, List.mem_dedup.1 h4, h2⟩
  · rintro ⟨v, hv, ⟨rfl, f, hf, ks, h1, h2⟩ | ⟨ks, rfl, hk, hf⟩⟩
    · have hm := mem_sourceIndex.1 (List.mem_of_mem_head? hf)
      refine ⟨⟨Dict.mem_keys_iff.2 ⟨_, hv⟩, f, hm⟩, ks, ?_, h2⟩
      simp only [DC.keysForSource, hv, hf, h1]
    · refine ⟨⟨Dict.mem_keys_iff.2 ⟨_, hv⟩, hf⟩, ks.dedup, ?_, List.mem_dedup.2 hk⟩
      simp only [DC.keysForSource, hv]

/-- Availability after a selection from `c`. -/
theorem available_restrict {c : DC V} {sel : Selection} {s k : Str} :
    Available (c.restrict sel) s k ↔ ∃ v, sel.get? s = some v ∧
      ((v = none ∧ ∃ f, (c.sourceIndex s).head? = some f ∧ FileHasKey f s k) ∨
       (∃ ks, v = some ks ∧ k ∈ ks ∧ ∃ f ∈ c.files, Holds f s)) := by
  rw [available_iff]
  have hsel : (c.restrict sel).selection = sel := rfl
  rw [hsel]
  constructor
  · rintro ⟨v, hv, h⟩
    have hs : s ∈ sel.keys := Dict.mem_keys_iff.2 ⟨_, hv⟩
    refine ⟨v, hv, ?_⟩
    rw [restrict_sourceIndex hs] at h
    rcases h with h | ⟨ks, h1, h2, f, hf, h3⟩
    · exact Or.inl h
    · exact Or.inr ⟨ks, h1, h2, f, (mem_filesFor.1 hf).1, h3⟩
  · rintro ⟨v, hv, h⟩
    have hs : s ∈ sel.keys := Dict.mem_keys_iff.2 ⟨_, hv⟩
    refine ⟨v, hv, ?_⟩
    rw [restrict_sourceIndex hs]
    rcases h with h | ⟨ks, h1, h2, f, hf, h3⟩
    · exact Or.inl h
    · exact Or.inr ⟨ks, h1, h2, f, mem_filesFor.2 ⟨hf, s, hs, h3⟩, h3⟩

theorem select_ok_iff {c d : DC V} {arg : SelArg} :
    c.select arg = .ok d ↔ ∃ sel, c.expandSelection arg = .ok sel ∧ NoConflict (c.filesFor sel) ∧ d = c.restrict sel := by
  unfold DC.select
  cases h : c.expandSelection arg with
  | error e => simp
  | ok sel => simp [make_ok_iff, DC.restrict]

theorem deselect_ok_iff {c d : DC V} {arg : SelArg} :
    c.deselect arg = .ok d ↔ ∃ desel items, c.expandSelection arg = .ok desel ∧
      mapE (c.deselectItem desel) c.selection = .ok items ∧ NoConflict (c.filesFor (items.filterMap id)) ∧
      d = c.restrict (items.filterMap id) := by
  unfold DC.deselect
  cases h : c.expandSelection arg with
  | error e => simp
  | ok desel =>
    cases h2 : mapE (c.deselectItem desel) c.selection with
    | error e => simp [h2]
    | ok items => simp [h2, make_ok_iff, DC.restrict]

/-! ### Globs -/

theorem keyMatcher_iff (c : DC V) (pat s k : Str) :
    (if (!(endsWith pat (ch! ".value") || endsWith pat (ch! "*"))) && decide (s ∈ c.controlSources)
      then globMatchOptValue pat else globMatch pat) k = true ↔ KeyMatches (s ∈ c.controlSources) pat k := by
  unfold KeyMatches
  by_cases hc : s ∈ c.controlSources
  · by_cases hv : endsWith pat (ch! ".value") = true
    · simp [hc, hv]
    · simp only [Bool.not_eq_true] at hv
      by_cases hstar : endsWith pat (ch! "*") = true
      · simp only [hc, hv, hstar, Bool.or_true, Bool.not_true, Bool.false_and, Bool.false_eq_true, if_false,
          true_and]
        constructor
        · exact Or.inl
        · rintro (h | ⟨k', rfl, h⟩)
          · exact h
          · obtain ⟨p, rfl⟩ := endsWith_iff.1 hstar
            exact globMatch_star_append p k' _ h
      · simp only [Bool.not_eq_true] at hstar
        simp only [hc, hv, hstar, Bool.or_false, Bool.not_false, Bool.true_and, decide_true, if_true, true_and]
        exact globMatchOptValue_iff pat k
  · simp [hc]

theorem globSource_star {c : DC V} {s : Str} : c.globSource (ch! "*") s = .ok (some (s, none)) := by
  simp [DC.globSource]

theorem globSource_keys {c : DC V} {kp s : Str} (hkp : kp ≠ ch! "*") {ks : List Str}
    (hks : c.keysForSource s = .ok ks) : ∃ keys : List Str,
      (∀ k, k ∈ keys ↔ k ∈ ks ∧ KeyMatches (s ∈ c.controlSources) kp k) ∧
      c.globSource kp s = (if keys = [] then .ok none else .ok (some (s, some keys))) := by
  refine ⟨ks.filter (if (!(endsWith kp (ch! ".value") || endsWith kp (ch! "*"))) && decide (s ∈ c.controlSources)
    then globMatchOptValue kp else globMatch kp), ?_, ?_⟩
  · intro k; rw [List.mem_filter, keyMatcher_iff]
  · simp only [DC.globSource, if_neg hkp, hks, List.isEmpty_iff]

theorem globSource_error {c : DC V} {kp s : Str} (hkp : kp ≠ ch! "*") {e : PyErr}
    (hks : c.keysForSource s = .error e) : c.globSource kp s = .error e := by
  simp only [DC.globSource, if_neg hkp, hks]

/-- What one source contributes for one pattern pair. -/
theorem globSource_some {c : DC V} {kp s s' : Str} {v : Option (List Str)}
    (h : c.globSource kp s = .ok (some (s', v))) :
    s' = s ∧ ((kp = ch! "*" ∧ v = none) ∨ (kp ≠ ch! "*" ∧ ∃ ks keys, c.keysForSource s = .ok ks ∧ v = some keys ∧
      keys ≠ [] ∧ ∀ k, k ∈ keys ↔ k ∈ ks ∧ KeyMatches (s ∈ c.controlSources) kp k)) := by
  by_cases hkp : kp = ch! "*"
  · subst hkp
    rw [globSource_star] at h
    simp at h
    exact ⟨h.1.symm, Or.inl ⟨rfl, h.2.symm⟩⟩
  · cases hks : c.keysForSource s with
    | error e => rw [globSource_error hkp hks] at h; simp at h
    | ok ks =>
      obtain ⟨keys, h1, h2⟩ := globSource_keys hkp hks
      rw [h2] at h
      split at h
      · simp at h
      · next hne =>
        simp at h
        exact ⟨h.1.symm, Or.inr ⟨hkp, ks, keys, rfl, h.2.symm, hne, h1⟩⟩

theorem selectGlob_ok {c : DC V} {sp kp : Str} {sel : Selection} (h : c.selectGlob sp kp = .ok sel) :
    sel ≠ [] ∧ sel.keys.Nodup ∧
    (∀ s v, (s, v) ∈ sel ↔ s ∈ c.allSources ∧ globMatch sp s = true ∧ c.globSource kp s = .ok (some (s, v))) := by
  unfold DC.selectGlob at h
  cases hm : mapE (c.globSource kp) (c.allSources.filter (globMatch sp)) with
  | error e => simp [hm] at h
  | ok rs =>
    simp only [hm] at h
    split at h
    · simp at h
    · next hne =>
      simp only [Except.ok.injEq] at h
      subst h
      refine ⟨by simpa [List.isEmpty_iff] using hne, ?_, ?_⟩
      · have hnd : (c.allSources.filter (globMatch sp)).Nodup := (List.nodup_dedup _).filter _
        have : ((rs.filterMap id).map Prod.fst).Sublist (c.allSources.filter (globMatch sp)) := by
          clear hne hnd
          generalize c.allSources.filter (globMatch sp) = l at hm
          induction l generalizing rs with
          | nil => simp [mapE] at hm; subst hm; simp
          | cons s l ih =>
            obtain ⟨b, bs, h1, h2, rfl⟩ := mapE_cons_ok.1 hm
            have := ih bs h2
            cases b with
            | none => simpa using this.cons s
            | some r =>
              obtain ⟨s', v⟩ := r
              have := (globSource_some h1).1
              subst this
              simp only [List.filterMap_cons, id, List.map_cons]
              exact List.Sublist.cons_cons _ (ih bs h2)
        exact this.nodup hnd
      · intro s v
        simp only [List.mem_filterMap, id, exists_eq_right, mapE_mem hm, List.mem_filter]
        constructor
        · rintro ⟨s', ⟨h1, h2⟩, h3⟩
          have := (globSource_some h3).1
          subst this
          exact ⟨h1, h2, h3⟩
        · rintro ⟨h1, h2, h3⟩
          exact ⟨s, ⟨h1, h2⟩, h3⟩

theorem selectGlob_error {c : DC V} (hr : KeysReadable c) {sp kp : Str} {e : PyErr}
    (h : c.selectGlob sp kp = .error e) :
    e = .value ∧ ∀ s ∈ c.allSources, globMatch sp s = true → c.globSource kp s = .ok none := by
  unfold DC.selectGlob at h
  cases hm : mapE (c.globSource kp) (c.allSources.filter (globMatch sp)) with
  | error e' =>
    exfalso
    obtain ⟨s, hs, e, he⟩ := mapE_error_iff.1 ⟨e', hm⟩
    simp only [List.mem_filter] at hs
    by_cases hkp : kp = ch! "*"
    · subst hkp; rw [globSource_star] at he; simp at he
    · obtain ⟨ks, hks⟩ := hr s hs.1
      obtain ⟨keys, -, h2⟩ := globSource_keys hkp hks
      rw [h2] at he
      split at he <;> simp at he
  | ok rs =>
    simp only [hm] at h
    split at h
    · next hemp =>
      simp at h
      refine ⟨h.symm, ?_⟩
      intro s hs hg
      obtain ⟨r, hr1, hr2⟩ := mapE_ok_all hm (a := s) (by simp [hs, hg])
      rw [hr2]
      cases r with
      | none => rfl
      | some x =>
        rw [List.isEmpty_iff] at hemp
        have : x ∈ rs.filterMap id := by simp; exact hr1
        rw [hemp] at this; simp at this
    · simp at h

/-- The selection made by a list of pattern pairs. -/
theorem expandGlobs_ok {c : DC V} {l : List (Str × Str)} {sel : Selection}
    (h : c.expandSelection (.globs l) = .ok sel) :
    ∃ sels, mapE (fun sk => c.selectGlob sk.1 sk.2) l = .ok sels ∧ sel = unionSelections sels ∧
      (∀ s v, (s, v) ∈ sels.flatten ↔ ∃ p ∈ l, s ∈ c.allSources ∧ globMatch p.1 s = true ∧
        c.globSource p.2 s = .ok (some (s, v))) := by
  unfold DC.expandSelection at h
  dsimp only at h
  cases hm : mapE (fun sk => c.selectGlob sk.1 sk.2) l with
  | error e => simp [hm] at h
  | ok sels =>
    simp only [hm, Except.ok.injEq] at h
    refine ⟨sels, rfl, h.symm, ?_⟩
    intro s v
    rw [List.mem_flatten]
    constructor
    · rintro ⟨sel', h1, h2⟩
      obtain ⟨p, hp, hg⟩ := (mapE_mem hm).1 h1
      exact ⟨p, hp, ((selectGlob_ok hg).2.2 s v).1 h2⟩
    · rintro ⟨p, hp, hh⟩
      obtain ⟨sel', h1, h2⟩ := mapE_ok_all hm hp
      exact ⟨sel', h1, ((selectGlob_ok h2).2.2 s v).2 hh⟩

/-! ### Dicts -/

theorem expandDict_ok {c : DC V} {l : List (Str × List Str)} : ∀ {acc sel : Selection},
    (∀ s v, acc.get? s = some v → ∃ ks, v = some ks) → foldE c.expandDictItem acc l = .ok sel →
    (∀ s v, sel.get? s = some v → ∃ ks, v = some ks) ∧
    (∀ kv ∈ l, kv.1 ∈ c.allSources ∧ kv.2 ≠ []) ∧
    (∀ s, s ∈ sel.keys ↔ s ∈ acc.keys ∨ s ∈ l.map Prod.fst) ∧
    (∀ s k, (∃ ks, sel.get? s = some (some ks) ∧ k ∈ ks) ↔
      (∃ ks, acc.get? s = some (some ks) ∧ k ∈ ks) ∨ ∃ kv ∈ l, kv.1 = s ∧ k ∈ kv.2) := by
  induction l with
  | nil =>
    intro acc sel hacc h
    simp only [foldE, Except.ok.injEq] at h
    subst h
    exact ⟨hacc, by simp, by simp, by simp⟩
  | cons kv l ih =>
    intro acc sel hacc h
    simp only [foldE] at h
    cases hi : c.expandDictItem acc kv with
    | error e => simp [hi] at h
    | ok acc' =>
      simp only [hi] at h
      unfold DC.expandDictItem at hi
      split at hi
      · simp at hi
      · next hmem =>
        split at hi
        · simp at hi
        · next hne =>
          simp only [Except.ok.injEq] at hi
          have hacc' : ∀ s v, acc'.get? s = some v → ∃ ks, v = some ks := by
            intro s v hv
            rw [← hi, Dict.get?_set] at hv
            split at hv
            · simp at hv; exact ⟨_, hv.symm⟩
            · exact hacc s v hv
          obtain ⟨h1, h2, h3, h4⟩ := ih hacc' h
          refine ⟨h1, ?_, ?_, ?_⟩
          · intro kv' hkv'
            rcases List.mem_cons.1 hkv' with rfl | h'
            · exact ⟨by simpa using hmem, by simpa [List.isEmpty_iff] using hne⟩
            · exact h2 kv' h'
          · intro s
            rw [h3, ← hi, Dict.keys_set]
            simp only [List.map_cons, List.mem_cons]
            split
            · next hin =>
              constructor
              · rintro (h | h)
                · exact Or.inl h
                · exact Or.inr (Or.inr h)
              · rintro (h | rfl | h)
                · exact Or.inl h
                · exact Or.inl hin
                · exact Or.inr h
            · simp only [List.mem_append, List.mem_singleton, or_assoc]
          · intro s k
            rw [h4]
            simp only [List.mem_cons, exists_eq_or_imp]
            rw [← or_assoc]
            apply or_congr_left
            rw [← hi, Dict.get?_set]
            by_cases hs : kv.1 = s
            · subst hs
              simp only [if_true, Option.some.injEq, exists_eq_left', true_and, List.mem_append]
              apply or_congr_left
              cases hg : acc.get? kv.1 with
              | none => simp
              | some v =>
                obtain ⟨ks, rfl⟩ := hacc _ _ hg
                simp
            · simp [hs]

theorem expandDict_error {c : DC V} {l : List (Str × List Str)} : ∀ {acc : Selection} {e : PyErr},
    foldE c.expandDictItem acc l = .error e →
    (e = .sourceName ∧ ∃ kv ∈ l, kv.1 ∉ c.allSources) ∨ (e = .type ∧ ∃ kv ∈ l, kv.2 = []) := by
  induction l with
  | nil => intro acc e h; simp [foldE] at h
  | cons kv l ih =>
    intro acc e h
    simp only [foldE] at h
    cases hi : c.expandDictItem acc kv with
    | error e' =>
      simp only [hi, Except.error.injEq] at h
      subst h
      unfold DC.expandDictItem at hi
      split at hi
      · next hmem => simp at hi; exact Or.inl ⟨hi.symm, kv, by simp, hmem⟩
      · split at hi
        · next hne => simp at hi; exact Or.inr ⟨hi.symm, kv, by simp, by simpa [List.isEmpty_iff] using hne⟩
        · simp at hi
    | ok acc' =>
      simp only [hi] at h
      rcases ih h with ⟨h1, kv', h2, h3⟩ | ⟨h1, kv', h2, h3⟩
      · exact Or.inl ⟨h1, kv', by simp [h2], h3⟩
      · exact Or.inr ⟨h1, kv', by simp [h2], h3⟩

/-! ### deselect -/

theorem deselectItem_some {c : DC V} {desel : Selection} {kv r : Str × Option (List Str)}
    (h : c.deselectItem desel kv = .ok (some r)) : r.1 = kv.1 := by
  unfold DC.deselectItem at h
  split at h
  · simp at h; rw [h]
  · simp at h
  · split at h
    · simp at h
    · simp at h; rw [← h]

theorem deselect_get? {c : DC V} {desel : Selection} {items : List (Option (Str × Option (List Str)))}
    {sel : Selection} (hn : sel.keys.Nodup)
    (h : mapE (c.deselectItem desel) sel = .ok items) (s : Str) (v : Option (List Str)) :
    Dict.get? (items.filterMap id) s = some v ↔
      ∃ w, sel.get? s = some w ∧ c.deselectItem desel (s, w) = .ok (some (s, v)) := by
  have hsub : ((items.filterMap id).map Prod.fst).Sublist (sel.map Prod.fst) := by
    clear hn
    induction sel generalizing items with
    | nil => simp [mapE] at h; subst h; simp
    | cons kv l ih =>
      obtain ⟨b, bs, h1, h2, rfl⟩ := mapE_cons_ok.1 h
      have := ih h2
      cases b with
      | none => simpa using this.cons _
      | some r =>
        simp only [List.filterMap_cons, id, List.map_cons, deselectItem_some h1]
        exact List.Sublist.cons_cons _ this
  have hn' : Dict.keys (items.filterMap id) |>.Nodup := hsub.nodup hn
  rw [Dict.get?_eq_some_iff hn']
  simp only [List.mem_filterMap, id, exists_eq_right, mapE_mem h]
  constructor
  · rintro ⟨⟨s', w⟩, h1, h2⟩
    have := deselectItem_some h2
    simp only at this
    subst this
    exact ⟨w, (Dict.get?_eq_some_iff hn).2 h1, h2⟩
  · rintro ⟨w, h1, h2⟩
    exact ⟨(s, w), (Dict.get?_eq_some_iff hn).1 h1, h2⟩

end KD

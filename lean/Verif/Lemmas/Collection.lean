/- Helper lemmas for collections. -/
import Verif.Spec.Collection
import Verif.Lemmas.Basic
import Verif.Lemmas.Glob

set_option linter.unusedSimpArgs false

namespace KD
open Spec

variable {V : Type}

theorem mem_controlSources {c : DC V} {s : Str} :
    s ∈ c.controlSources ↔ s ∈ c.selection.keys ∧ ∃ f ∈ c.files, s ∈ f.controlSources := by
  simp only [DC.controlSources, List.mem_dedup, List.mem_flatMap, List.mem_filter, decide_eq_true_eq]
  constructor
  · rintro ⟨f, hf, h1, h2⟩; exact ⟨h2, f, hf, h1⟩
  · rintro ⟨h2, f, hf, h1⟩; exact ⟨f, hf, h1, h2⟩

theorem mem_instrumentSources {c : DC V} {s : Str} :
    s ∈ c.instrumentSources ↔ s ∈ c.selection.keys ∧ ∃ f ∈ c.files, s ∈ f.instrumentSources := by
  simp only [DC.instrumentSources, List.mem_dedup, List.mem_flatMap, List.mem_filter, decide_eq_true_eq]
  constructor
  · rintro ⟨f, hf, h1, h2⟩; exact ⟨h2, f, hf, h1⟩
  · rintro ⟨h2, f, hf, h1⟩; exact ⟨f, hf, h1, h2⟩

theorem mem_allSources {c : DC V} {s : Str} :
    s ∈ c.allSources ↔ s ∈ c.selection.keys ∧ ∃ f ∈ c.files, Holds f s := by
  simp only [DC.allSources, List.mem_dedup, List.mem_append, mem_controlSources, mem_instrumentSources, Holds]
  constructor
  · rintro (⟨h, f, hf, h1⟩ | ⟨h, f, hf, h1⟩)
    · exact ⟨h, f, hf, Or.inl h1⟩
    · exact ⟨h, f, hf, Or.inr h1⟩
  · rintro ⟨h, f, hf, h1 | h1⟩
    · exact Or.inl ⟨h, f, hf, h1⟩
    · exact Or.inr ⟨h, f, hf, h1⟩

theorem mem_sourceIndex {c : DC V} {s : Str} {f : FileAccess V} :
    f ∈ c.sourceIndex s ↔ f ∈ c.files ∧ Holds f s := by
  simp [DC.sourceIndex, Holds]

theorem conflictIn_false {got : List Nat} {fs : List (FileAccess V)} :
    conflictIn got fs = false ↔
      (∀ f ∈ fs, ∀ t ∈ got, t ∉ f.trainIds) ∧ fs.Pairwise (fun f g => ∀ t ∈ f.trainIds, t ∉ g.trainIds) := by
  induction fs generalizing got with
  | nil => simp [conflictIn]
  | cons f fs ih =>
    simp only [conflictIn]
    split
    · next h =>
      simp only [List.any_eq_true, decide_eq_true_eq] at h
      obtain ⟨t, h1, h2⟩ := h
      simp only [Bool.true_eq_false, false_iff]
      rintro ⟨h, -⟩
      exact h f (by simp) t h1 h2
    · next h =>
      simp only [List.any_eq_true, decide_eq_true_eq, not_exists, not_and] at h
      rw [ih, List.pairwise_cons]
      simp only [List.mem_append, List.mem_cons, forall_eq_or_imp]
      constructor
      · rintro ⟨h1, h2⟩
        exact ⟨⟨h, fun g hg t ht => h1 g hg t (Or.inl ht)⟩, fun g hg t ht => h1 g hg t (Or.inr ht), h2⟩
      · rintro ⟨⟨-, h1⟩, h2, h3⟩
        refine ⟨fun g hg t ht => ?_, h3⟩
        rcases ht with ht | ht
        · exact h1 g hg t ht
        · exact h2 g hg t ht

theorem hasConflicts_false {files : List (FileAccess V)} : hasConflicts files = false ↔ NoConflict files := by
  simp only [hasConflicts, List.any_eq_false, List.mem_flatMap, List.mem_append, Bool.not_eq_true, conflictIn_false,
    List.not_mem_nil, false_imp_iff, implies_true, true_and]
  simp only [NoConflict, List.pairwise_filter, decide_eq_true_eq]
  constructor
  · intro h
    rw [List.pairwise_iff_forall_sublist]
    intro f g hfg s t hf hg ht
    have hm : f ∈ files := hfg.subset (by simp)
    have := h s ⟨f, hm, hf⟩
    rw [List.pairwise_iff_forall_sublist] at this
    exact this hfg hf hg t ht
  · intro h s _
    exact h.imp (fun hc hf hg t ht => hc s t hf hg ht)

theorem hasConflicts_true {files : List (FileAccess V)} : hasConflicts files = true ↔ ¬ NoConflict files := by
  rw [← hasConflicts_false]; simp

/-- The collection which `DC.make` returns. -/
theorem make_ok_iff {files : List (FileAccess V)} {sel ts b} {c : DC V} :
    DC.make files sel ts b = .ok c ↔ NoConflict files ∧
      c = ⟨files, sel.getD (defaultSelection files),
        ts.getD (sortedSet (files.flatMap (fun f => f.trainIds))), b⟩ := by
  unfold DC.make
  dsimp only
  split
  · next h => simp [hasConflicts_true.1 h]
  · next h =>
    simp only [Bool.not_eq_true] at h
    simp only [hasConflicts_false.1 h, Except.ok.injEq, true_and]
    rw [eq_comm]
    cases sel <;> cases ts <;> rfl

theorem make_error_iff {files : List (FileAccess V)} {sel ts b} {e : PyErr} :
    DC.make files sel ts b = .error e ↔ ¬ NoConflict files ∧ e = .value := by
  unfold DC.make
  dsimp only
  split
  · next h => simp [hasConflicts_true.1 h, eq_comm]
  · next h => simp [hasConflicts_false.1 (by simpa using h)]

theorem defaultSelection_aux (files : List (FileAccess V)) : ∀ sel : Selection, (∀ s v, sel.get? s = some v → v = none) →
    let r := files.foldl (fun sel f =>
      (sel.update (f.controlSources.map (fun s => (s, none)))).update
        (f.instrumentSources.map (fun s => (s, none)))) sel
    (∀ s v, r.get? s = some v → v = none) ∧ ∀ s, s ∈ r.keys ↔ s ∈ sel.keys ∨ ∃ f ∈ files, Holds f s := by
  have upd : ∀ (l : List Str) (sel : Selection), (∀ s v, sel.get? s = some v → v = none) →
      ∀ s v, (sel.update (l.map (fun s => (s, none)))).get? s = some v → v = none := by
    intro l
    induction l with
    | nil => intro sel h; exact h
    | cons x l ih =>
      intro sel h
      rw [List.map_cons, Dict.update_cons]
      apply ih
      intro s v hv
      rw [Dict.get?_set] at hv
      split at hv
      · simp at hv; exact hv.symm
      · exact h s v hv
  induction files with
  | nil => intro sel h; exact ⟨h, by simp⟩
  | cons f files ih =>
    intro sel h
    have h1 := upd f.controlSources sel h
    have h2 := upd f.instrumentSources _ h1
    have := ih _ h2
    refine ⟨this.1, fun s => ?_⟩
    rw [List.foldl_cons, this.2 s, Dict.mem_keys_update, Dict.mem_keys_update]
    simp only [List.map_map, Function.comp_def, List.map_id', Holds, List.mem_cons, exists_eq_or_imp, or_assoc]

theorem defaultSelection_get? (files : List (FileAccess V)) (s : Str) :
    ((∃ f ∈ files, Holds f s) → (defaultSelection files).get? s = some none) ∧
    (s ∈ (defaultSelection files).keys ↔ ∃ f ∈ files, Holds f s) := by
  have := defaultSelection_aux files [] (by simp)
  have h2 : s ∈ (defaultSelection files).keys ↔ ∃ f ∈ files, Holds f s := by
    have := this.2 s
    simpa [Dict.keys, defaultSelection] using this
  refine ⟨fun h => ?_, h2⟩
  obtain ⟨v, hv⟩ := Dict.mem_keys_iff.1 (h2.2 h)
  rw [hv, this.1 s v hv]

/-! ### unionSelections -/

theorem mem_keys_of_mem {K W : Type _} {d : Dict K W} {k : K} {v : W} (h : (k, v) ∈ d) : k ∈ d.keys :=
  List.mem_map.2 ⟨(k, v), h, rfl⟩

theorem get?_map_mk {W : Type _} (l : List Str) (g : Str → W) (s : Str) :
    Dict.get? (l.map (fun x => (x, g x))) s = if s ∈ l then some (g s) else none := by
  induction l with
  | nil => simp
  | cons x l ih =>
    simp only [List.map_cons, Dict.get?_cons, ih, List.mem_cons]
    by_cases h : x = s
    · simp [h]
    · simp [h, Ne.symm h]

theorem unionSelections_keys (sels : List Selection) :
    (unionSelections sels).keys = (sels.flatten.map Prod.fst).dedup := by
  simp [unionSelections, Dict.keys, Function.comp_def]

theorem mem_unionSelections_keys {sels : List Selection} {s : Str} :
    s ∈ (unionSelections sels).keys ↔ ∃ sel ∈ sels, s ∈ sel.keys := by
  rw [unionSelections_keys]
  simp only [List.mem_dedup, List.mem_map, List.mem_flatten, Dict.keys]
  constructor
  · rintro ⟨kv, ⟨sel, h1, h2⟩, rfl⟩; exact ⟨sel, h1, kv, h2, rfl⟩
  · rintro ⟨sel, h1, kv, h2, rfl⟩; exact ⟨kv, ⟨sel, h1, h2⟩, rfl⟩

theorem unionSelections_nodup (sels : List Selection) : (unionSelections sels).keys.Nodup := by
  rw [unionSelections_keys]; exact List.nodup_dedup _

theorem unionSelections_get? (sels : List Selection) (s : Str) (v : Option (List Str)) :
    (unionSelections sels).get? s = some v ↔
      (∃ w, (s, w) ∈ sels.flatten) ∧
        v = (if (s, none) ∈ sels.flatten then none
          else some (((sels.flatten.filter (fun kv => kv.1 = s)).map Prod.snd).filterMap id).flatten) := by
  unfold unionSelections
  dsimp only
  rw [get?_map_mk]
  simp only [List.mem_dedup, List.mem_map]
  have e : (∃ a ∈ sels.flatten, a.1 = s) ↔ ∃ w, (s, w) ∈ sels.flatten := by
    constructor
    · rintro ⟨⟨a, b⟩, h, rfl⟩; exact ⟨b, h⟩
    · rintro ⟨w, h⟩; exact ⟨_, h, rfl⟩
  have e2 : (none ∈ (sels.flatten.filter (fun kv => kv.1 = s)).map Prod.snd) ↔ (s, none) ∈ sels.flatten := by
    simp only [List.mem_map, List.mem_filter, decide_eq_true_eq]
    constructor
    · rintro ⟨⟨a, b⟩, ⟨h, rfl⟩, rfl⟩; exact h
    · intro h; exact ⟨_, ⟨h, rfl⟩, rfl⟩
  simp only [List.mem_map] at e2
  simp only [e, e2]
  split
  · next h => rw [e] at h; simp only [h, true_and, Option.some.injEq]; exact eq_comm
  · next h => rw [e] at h; simp only [h, false_and, reduceCtorEq]

theorem mem_union_keys {sels : List Selection} {s k : Str} :
    (k ∈ (((sels.flatten.filter (fun kv => kv.1 = s)).map Prod.snd).filterMap id).flatten) ↔
      ∃ ks, (s, some ks) ∈ sels.flatten ∧ k ∈ ks := by
  simp only [List.mem_flatten, List.mem_filterMap, List.mem_map, List.mem_filter, decide_eq_true_eq, id]
  constructor
  · rintro ⟨ks, ⟨a, ⟨⟨s', v⟩, ⟨h1, rfl⟩, rfl⟩, h2⟩, h3⟩
    simp only at h2
    subst h2
    exact ⟨ks, h1, h3⟩
  · rintro ⟨ks, h1, h2⟩
    exact ⟨ks, ⟨some ks, ⟨(s, some ks), ⟨h1, rfl⟩, rfl⟩, rfl⟩, h2⟩

theorem includes_union (sels : List Selection) (hn : ∀ sel ∈ sels, sel.keys.Nodup) (s k : Str) :
    Includes (unionSelections sels) s k ↔ ∃ sel ∈ sels, Includes sel s k := by
  have key : (∃ sel ∈ sels, Includes sel s k) ↔
      (s, none) ∈ sels.flatten ∨ ∃ ks, (s, some ks) ∈ sels.flatten ∧ k ∈ ks := by
    constructor
    · rintro ⟨sel, h1, v, h2, rfl | ⟨ks, rfl, h3⟩⟩
      · left; exact List.mem_flatten.2 ⟨sel, h1, Dict.mem_of_get? h2⟩
      · right; exact ⟨ks, List.mem_flatten.2 ⟨sel, h1, Dict.mem_of_get? h2⟩, h3⟩
    · rintro (h | ⟨ks, h, h3⟩)
      · obtain ⟨sel, h1, h2⟩ := List.mem_flatten.1 h
        exact ⟨sel, h1, none, (Dict.get?_eq_some_iff (hn sel h1)).2 h2, Or.inl rfl⟩
      · obtain ⟨sel, h1, h2⟩ := List.mem_flatten.1 h
        exact ⟨sel, h1, some ks, (Dict.get?_eq_some_iff (hn sel h1)).2 h2, Or.inr ⟨ks, rfl, h3⟩⟩
  rw [key]
  unfold Includes
  simp only [unionSelections_get?]
  by_cases hnone : (s, none) ∈ sels.flatten
  · simp only [hnone, if_true, true_or, iff_true]
    exact ⟨none, ⟨⟨none, hnone⟩, rfl⟩, Or.inl rfl⟩
  · simp only [hnone, if_false, false_or]
    constructor
    · rintro ⟨v, ⟨-, rfl⟩, h | ⟨ks, h, hk⟩⟩
      · simp at h
      · simp only [Option.some.injEq] at h
        subst h
        exact mem_union_keys.1 hk
    · rintro ⟨ks, h, hk⟩
      exact ⟨_, ⟨⟨_, h⟩, rfl⟩, Or.inr ⟨_, rfl, mem_union_keys.2 ⟨ks, h, hk⟩⟩⟩

end KD

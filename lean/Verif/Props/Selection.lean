/- Properties C12-C16: selecting and deselecting sources and keys. -/
import Verif.Lemmas.Selection
import Verif.Props.Construct

set_option linter.unusedSimpArgs false

namespace KD
open Spec

variable {V : Type}

/-! ### C12 -/

/-- C12. After `select` with pattern pairs, a source/key pair is available exactly when it was available before and
matches one of the pairs. The key pattern `*` may be used for sources of which all keys are selected; for others see
`select_star_brings_back`. -/
theorem select_globs_exact {c d : DC V} {l : List (Str × Str)} (h : c.select (.globs l) = .ok d)
    (hstar : ∀ p ∈ l, p.2 = ch! "*" → ∀ s ∈ c.allSources, globMatch p.1 s = true → c.selection.get? s = some none)
    (s k : Str) : Available d s k ↔ Available c s k ∧ MatchesOne c l s k := by
  obtain ⟨sel, h1, -, rfl⟩ := select_ok_iff.1 h
  obtain ⟨sels, -, rfl, hmem⟩ := expandGlobs_ok h1
  rw [available_restrict]
  simp only [unionSelections_get?]
  have hnone : (s, none) ∈ sels.flatten → c.selection.get? s = some none ∧
      ∃ p ∈ l, globMatch p.1 s = true ∧ p.2 = ch! "*" := by
    intro hin
    obtain ⟨p, hp, hs, hg, hgs⟩ := (hmem _ _).1 hin
    rcases (globSource_some hgs).2 with ⟨hst, -⟩ | ⟨-, ks, keys, -, hv, -⟩
    · exact ⟨hstar p hp hst s hs hg, p, hp, hg, hst⟩
    · simp at hv
  constructor
  · rintro ⟨v, ⟨⟨w, hw⟩, rfl⟩, hv⟩
    by_cases hin : (s, none) ∈ sels.flatten
    · simp only [hin, if_true, reduceCtorEq, false_and, exists_false, or_false, true_and] at hv
      obtain ⟨hsel, p, hp, hg, hst⟩ := hnone hin
      refine ⟨available_iff.2 ⟨none, hsel, Or.inl ⟨rfl, hv⟩⟩, p, hp, hg, Or.inl ?_⟩
      rw [hst]
      have := (globMatch_star_append [] [] k) (by decide)
      simpa using this
    · simp only [hin, if_false, reduceCtorEq, false_and, Option.some.injEq, exists_eq_left', false_or] at hv
      obtain ⟨hk, -⟩ := hv
      obtain ⟨ks, hks, hk⟩ := mem_union_keys.1 hk
      obtain ⟨p, hp, hs, hg, hgs⟩ := (hmem _ _).1 hks
      rcases (globSource_some hgs).2 with ⟨-, hv⟩ | ⟨-, ks', keys, h2, hv, -, h3⟩
      · simp at hv
      · simp at hv; subst hv
        exact ⟨⟨hs, ks', h2, ((h3 k).1 hk).1⟩, p, hp, hg, ((h3 k).1 hk).2⟩
  · rintro ⟨⟨hs, ks, hks, hk⟩, p, hp, hg, hkm⟩
    have hfile : ∃ f ∈ c.files, Holds f s := (mem_allSources.1 hs).2
    by_cases hin : (s, none) ∈ sels.flatten
    · refine ⟨none, ⟨⟨_, hin⟩, by simp [hin]⟩, Or.inl ⟨rfl, ?_⟩⟩
      obtain ⟨f, hf, -⟩ := head?_sourceIndex hfile
      refine ⟨f, hf, ks, ?_, hk⟩
      simpa only [DC.keysForSource, (hnone hin).1, hf] using hks
    · have hp2 : p.2 ≠ ch! "*" := by
        intro e
        apply hin
        refine (hmem s none).2 ⟨p, hp, hs, hg, ?_⟩
        rw [e]; exact globSource_star
      obtain ⟨keys, h2, h3⟩ := globSource_keys hp2 hks
      have hkk : k ∈ keys := (h2 k).2 ⟨hk, hkm⟩
      have hne : keys ≠ [] := by rintro rfl; simp at hkk
      rw [if_neg hne] at h3
      have hin2 : (s, some keys) ∈ sels.flatten := (hmem _ _).2 ⟨p, hp, hs, hg, h3⟩
      exact ⟨_, ⟨⟨_, hin2⟩, rfl⟩, Or.inr ⟨_, by rw [if_neg hin], mem_union_keys.2 ⟨keys, hin2, hkk⟩, hfile⟩⟩

/-- The pair of patterns matches nothing in the collection. -/
def PairMatchesNothing (c : DC V) (p : Str × Str) : Prop :=
  if p.2 = ch! "*" then ∀ s ∈ c.allSources, globMatch p.1 s = false
  else ∀ s k, Available c s k → ¬ (globMatch p.1 s = true ∧ KeyMatches (s ∈ c.controlSources) p.2 k)

/-- C12. `select` with pattern pairs raises ValueError exactly when one of the pairs matches nothing, and nothing else
(given that the keys of the files can be listed). -/
theorem select_globs_error {c : DC V} (hc : NoConflict c.files) (hr : KeysReadable c) (l : List (Str × Str)) :
    (c.select (.globs l) = .error .value ↔ ∃ p ∈ l, PairMatchesNothing c p) ∧
    (∀ e, c.select (.globs l) = .error e → e = .value) := by
  have glob : ∀ p : Str × Str, (∃ e, c.selectGlob p.1 p.2 = .error e) ↔ PairMatchesNothing c p := by
    intro p
    unfold PairMatchesNothing
    constructor
    · rintro ⟨e, he⟩
      obtain ⟨-, hno⟩ := selectGlob_error hr he
      split
      · next hst =>
        intro s hs
        by_contra hg
        have := hno s hs (by simpa using hg)
        rw [hst, globSource_star] at this
        simp at this
      · next hst =>
        rintro s k ⟨hs, ks, hks, hk⟩ ⟨hg, hkm⟩
        obtain ⟨keys, h2, h3⟩ := globSource_keys hst hks
        have hkk : k ∈ keys := (h2 k).2 ⟨hk, hkm⟩
        have hne : keys ≠ [] := by rintro rfl; simp at hkk
        rw [if_neg hne, hno s hs hg] at h3
        simp at h3
    · intro hp
      cases hsg : c.selectGlob p.1 p.2 with
      | error e => exact ⟨e, rfl⟩
      | ok sel =>
        exfalso
        obtain ⟨hne, -, hm⟩ := selectGlob_ok hsg
        obtain ⟨⟨s, v⟩, hsv⟩ := List.exists_mem_of_ne_nil _ hne
        obtain ⟨hs, hg, hgs⟩ := (hm s v).1 hsv
        rcases (globSource_some hgs).2 with ⟨hst, -⟩ | ⟨hst, ks, keys, h2, -, hne, h3⟩
        · rw [if_pos hst] at hp
          rw [hp s hs] at hg; simp at hg
        · rw [if_neg hst] at hp
          obtain ⟨k, hk⟩ := List.exists_mem_of_ne_nil _ hne
          exact hp s k ⟨hs, ks, h2, ((h3 k).1 hk).1⟩ ⟨hg, ((h3 k).1 hk).2⟩
  have sel_error : ∀ e, c.select (.globs l) = .error e ↔
      mapE (fun sk => c.selectGlob sk.1 sk.2) l = .error e := by
    intro e
    unfold DC.select DC.expandSelection
    dsimp only
    cases hm : mapE (fun sk => c.selectGlob sk.1 sk.2) l with
    | error e' => simp
    | ok sels =>
      simp only [make_error_iff, reduceCtorEq, iff_false, not_and]
      intro h
      exact absurd (filesFor_noConflict hc _) h
  have val : ∀ e, mapE (fun sk => c.selectGlob sk.1 sk.2) l = .error e → e = .value := by
    clear sel_error
    induction l with
    | nil => intro e h; simp [mapE] at h
    | cons p l ih =>
      intro e h
      simp only [mapE] at h
      cases hp : c.selectGlob p.1 p.2 with
      | error e' => simp [hp] at h; rw [← h]; exact (selectGlob_error hr hp).1
      | ok b =>
        simp only [hp] at h
        cases hl : mapE (fun sk => c.selectGlob sk.1 sk.2) l with
        | error e' => simp [hl] at h; rw [← h]; exact ih e' hl
        | ok bs => simp [hl] at h
  refine ⟨?_, fun e h => val e ((sel_error e).1 h)⟩
  rw [sel_error]
  constructor
  · intro h
    obtain ⟨p, hp, he⟩ := mapE_error_iff.1 ⟨_, h⟩
    exact ⟨p, hp, (glob p).1 he⟩
  · rintro ⟨p, hp, hn⟩
    obtain ⟨e, he⟩ := (mapE_error_iff (f := fun sk : Str × Str => c.selectGlob sk.1 sk.2)).2 ⟨p, hp, (glob p).2 hn⟩
    rw [he, val e he]

/-- A file with two sources for the examples. -/
def exSel : DC Nat where
  files := [⟨ch! "a", [1, 2], [ch! "S"], [ch! "D:o"],
    { trainId := none, version := none, sources05 := none, sources10 := none, index := [], groups := [],
      datasets := [([ch! "CONTROL", ch! "S", ch! "x", ch! "value"], ⟨[7, 8], [], 0⟩),
        ([ch! "CONTROL", ch! "S", ch! "x", ch! "timestamp"], ⟨[1, 1], [], 0⟩),
        ([ch! "INSTRUMENT", ch! "D:o", ch! "data", ch! "y"], ⟨[10, 11], [], 0⟩)] }⟩]
  selection := [(ch! "S", none), (ch! "D:o", none)]
  trainIds := [1, 2]
  ctxCloses := true

example : (exSel.select (.globs [(ch! "S", ch! "x")])).map DC.selection
    = .ok [(ch! "S", some [ch! "x.value"])] := by decide
example : exSel.select (.globs [(ch! "S", ch! "x"), (ch! "D*", ch! "value")]) = .error .value := by decide
example : KeysReadable exSel := by
  intro s hs
  have : s = ch! "S" ∨ s = ch! "D:o" := by
    have e : exSel.allSources = [ch! "S", ch! "D:o"] := by decide
    rw [e] at hs; simpa using hs
  rcases this with rfl | rfl
  · exact ⟨[ch! "x.value", ch! "x.timestamp"], by decide⟩
  · exact ⟨[ch! "data.y"], by decide⟩

/-! ### C13 -/

/-- C13 is false: after selecting one key of a source, selecting all keys of it with `*` brings the others back. -/
theorem select_star_brings_back :
    let c := exSel.restrict [(ch! "S", some [ch! "x.value"])]
    exSel.select (.globs [(ch! "S", ch! "x.value")]) = .ok c ∧
    c.keysForSource (ch! "S") = .ok [ch! "x.value"] ∧
    c.select (.globs [(ch! "S", ch! "*")]) = .ok (c.restrict [(ch! "S", none)]) ∧
    (c.restrict [(ch! "S", none)]).keysForSource (ch! "S") = .ok [ch! "x.value", ch! "x.timestamp"] := by decide

/-- C13 is false: `select` with a dict of keys does not look at what was selected before. -/
theorem select_dict_brings_back :
    let c := exSel.restrict [(ch! "S", some [ch! "x.value"])]
    c.select (.dict [(ch! "S", [ch! "x.timestamp"])]) = .ok (c.restrict [(ch! "S", some [ch! "x.timestamp"])]) ∧
    (c.restrict [(ch! "S", some [ch! "x.timestamp"])]).keysForSource (ch! "S") = .ok [ch! "x.timestamp"] := by decide

/-- The steps for which C13 holds: selecting with key patterns other than `*`, selecting with a dict of available
pairs, deselecting anything, and selecting trains. -/
inductive NarrowingStep : DC V → DC V → Prop
  | globs {c d : DC V} {l : List (Str × Str)} : (∀ p ∈ l, p.2 ≠ ch! "*") → c.select (.globs l) = .ok d →
      NarrowingStep c d
  | dict {c d : DC V} {l : List (Str × List Str)} : (∀ kv ∈ l, ∀ k ∈ kv.2, Available c kv.1 k) →
      c.select (.dict l) = .ok d → NarrowingStep c d
  | other {c d : DC V} : c.select .other = .ok d → NarrowingStep c d
  | deselect {c d : DC V} {arg : SelArg} : c.deselect arg = .ok d → NarrowingStep c d
  | trains {c d : DC V} {tr : TrainRange} : c.selectTrains tr = .ok d → NarrowingStep c d

/-- Sequences of such steps. -/
inductive NarrowingSteps : DC V → DC V → Prop
  | refl (c : DC V) : NarrowingSteps c c
  | step {a b c : DC V} : NarrowingSteps a b → NarrowingStep b c → NarrowingSteps a c

theorem deselect_nodup {c : DC V} {desel : Selection} {items : List (Option (Str × Option (List Str)))}
    (hn : c.selection.keys.Nodup) (h : mapE (c.deselectItem desel) c.selection = .ok items) :
    (Dict.keys (items.filterMap id)).Nodup := by
  have hsub : ((items.filterMap id).map Prod.fst).Sublist (c.selection.map Prod.fst) := by
    clear hn
    generalize c.selection = sel at h
    induction sel generalizing items with
    | nil => simp [mapE] at h; subst h; simp
    | cons kv l ih =>
      obtain ⟨b, bs, h1, h2, rfl⟩ := mapE_cons_ok.1 h
      have := ih h2
      cases b with
      | none => simpa using this.cons _
      | some r =>
        simp only [List.filterMap_cons, id, List.map_cons, deselectItem_some h1]
        exact List.Sublist.cons_cons _ this
  exact hsub.nodup hn

theorem expandSelection_nodup {c : DC V} {arg : SelArg} {sel : Selection} (h : c.expandSelection arg = .ok sel) :
    sel.keys.Nodup := by
  cases arg with
  | other => simp [DC.expandSelection] at h; subst h; simp [Dict.keys]
  | globs l => obtain ⟨sels, -, rfl, -⟩ := expandGlobs_ok h; exact unionSelections_nodup sels
  | dict l =>
    simp only [DC.expandSelection] at h
    have : ∀ (acc : Selection), acc.keys.Nodup → foldE c.expandDictItem acc l = .ok sel → sel.keys.Nodup := by
      clear h
      induction l with
      | nil => intro acc ha h; simp [foldE] at h; subst h; exact ha
      | cons kv l ih =>
        intro acc ha h
        simp only [foldE] at h
        cases hi : c.expandDictItem acc kv with
        | error e => simp [hi] at h
        | ok acc' =>
          simp only [hi] at h
          refine ih acc' ?_ h
          unfold DC.expandDictItem at hi
          split at hi
          · simp at hi
          · split at hi
            · simp at hi
            · simp at hi; rw [← hi]; exact Dict.nodup_set ha _ _
    exact this [] (by simp [Dict.keys]) h

theorem defaultSelection_nodup (files : List (FileAccess V)) : (defaultSelection files).keys.Nodup := by
  unfold defaultSelection
  have : ∀ sel : Selection, sel.keys.Nodup → (files.foldl (fun sel f =>
      (sel.update (f.controlSources.map (fun s => (s, none)))).update
        (f.instrumentSources.map (fun s => (s, none)))) sel).keys.Nodup := by
    induction files with
    | nil => intro sel h; exact h
    | cons f fs ih => intro sel h; exact ih _ (Dict.nodup_update (Dict.nodup_update h _) _)
  exact this [] (by simp [Dict.keys])

/-- Selections of reachable collections are dictionaries: no source is there twice. -/
theorem reachable_selection_nodup {c : DC V} (h : Reachable c) : c.selection.keys.Nodup := by
  induction h with
  | opened h =>
    obtain ⟨files, -, h2⟩ := fromPaths_ok h
    obtain ⟨-, rfl⟩ := make_ok_iff.1 h2
    exact defaultSelection_nodup _
  | openedOne h =>
    unfold DC.fromPath at h
    split at h
    · simp at h
    · obtain ⟨-, rfl⟩ := make_ok_iff.1 h; exact defaultSelection_nodup _
  | select hc h ih =>
    obtain ⟨sel, h1, -, rfl⟩ := select_ok_iff.1 h
    exact expandSelection_nodup h1
  | deselect hc h ih =>
    obtain ⟨desel, items, h1, h2, -, rfl⟩ := deselect_ok_iff.1 h
    exact deselect_nodup ih h2
  | selectTrains hc h ih =>
    unfold DC.selectTrains at h
    split at h
    · simp at h
    · obtain ⟨-, rfl⟩ := make_ok_iff.1 h; exact ih
  | union hc ho h ih =>
    unfold DC.union at h
    obtain ⟨-, rfl⟩ := make_ok_iff.1 h
    exact unionSelections_nodup _

theorem narrowing_step {c d : DC V} (hn : c.selection.keys.Nodup) (hk : SameKeys c.files) (h : NarrowingStep c d) :
    d.selection.keys.Nodup ∧ (∀ f ∈ d.files, f ∈ c.files) ∧ ∀ s k, Available d s k → Available c s k := by
  have sub : ∀ sel : Selection, ∀ f ∈ (c.restrict sel).files, f ∈ c.files := fun sel f hf => (mem_filesFor.1 hf).1
  cases h with
  | globs hl h =>
    obtain ⟨sel, h1, -, rfl⟩ := select_ok_iff.1 h
    refine ⟨expandSelection_nodup h1, sub sel, fun s k ha => ?_⟩
    exact ((select_globs_exact h (fun p hp e => absurd e (hl p hp)) s k).1 ha).1
  | dict hl h =>
    obtain ⟨sel, h1, -, rfl⟩ := select_ok_iff.1 h
    refine ⟨expandSelection_nodup h1, sub sel, fun s k ha => ?_⟩
    obtain ⟨h2, h3, h4, h5⟩ := expandDict_ok (by simp) h1
    obtain ⟨v, hv, ha⟩ := available_restrict.1 ha
    obtain ⟨ks, rfl⟩ := h2 s v hv
    simp only [reduceCtorEq, false_and, Option.some.injEq, exists_eq_left', false_or] at ha
    rcases (h5 s k).1 ⟨ks, hv, ha.1⟩ with ⟨ks', h, -⟩ | ⟨kv, hkv, rfl, hkk⟩
    · simp at h
    · exact hl kv hkv k hkk
  | other h =>
    obtain ⟨sel, h1, -, rfl⟩ := select_ok_iff.1 h
    refine ⟨expandSelection_nodup h1, sub sel, fun s k ha => ?_⟩
    simp [DC.expandSelection] at h1
    subst h1
    obtain ⟨v, hv, -⟩ := available_restrict.1 ha
    simp at hv
  | deselect h =>
    obtain ⟨desel, items, h1, h2, -, rfl⟩ := deselect_ok_iff.1 h
    refine ⟨deselect_nodup hn h2, sub _, fun s k ha => ?_⟩
    obtain ⟨v, hv, ha⟩ := available_restrict.1 ha
    obtain ⟨w, hw, hi⟩ := (deselect_get? hn h2 s v).1 hv
    unfold DC.deselectItem at hi
    split at hi
    · simp at hi; subst hi
      exact available_iff.2 ⟨w, hw, ha⟩
    · simp at hi
    · next dk hdk =>
      split at hi
      · simp at hi
      · next ks hks =>
        simp at hi; subst hi
        simp only [reduceCtorEq, false_and, Option.some.injEq, exists_eq_left', false_or] at ha
        obtain ⟨hkk, f, hf, hh⟩ := ha
        simp only [List.mem_filter] at hkk
        refine ⟨mem_allSources.2 ⟨Dict.mem_keys_iff.2 ⟨w, hw⟩, f, hf, hh⟩, ?_⟩
        cases w with
        | none => exact ⟨ks, by simpa using hks, hkk.1⟩
        | some ks' =>
          simp at hks; subst hks
          exact ⟨ks'.dedup, by simp only [DC.keysForSource, hw], List.mem_dedup.2 hkk.1⟩
  | @trains tr h =>
    unfold DC.selectTrains at h
    cases hts : selectTrainIds c.trainIds tr with
    | error e => simp [hts] at h
    | ok new =>
      simp only [hts] at h
      obtain ⟨-, rfl⟩ := make_ok_iff.1 h
      refine ⟨hn, fun f hf => (List.mem_filter.1 hf).1, fun s k ha => ?_⟩
      obtain ⟨v, hv, ha⟩ := available_iff.1 ha
      refine available_iff.2 ⟨v, hv, ?_⟩
      rcases ha with ⟨rfl, f, hf, hkey⟩ | ⟨ks, rfl, hkk, f, hf, hh⟩
      · left
        refine ⟨rfl, ?_⟩
        obtain ⟨hf1, hf2⟩ := mem_sourceIndex.1 (List.mem_of_mem_head? hf)
        have hfc : f ∈ c.files := (List.mem_filter.1 hf1).1
        obtain ⟨g, hg, hgc, hgs⟩ := head?_sourceIndex (c := c) ⟨f, hfc, hf2⟩
        exact ⟨g, hg, (hk f hfc g hgc s hf2 hgs k).1 hkey⟩
      · exact Or.inr ⟨ks, rfl, hkk, f, (List.mem_filter.1 hf).1, hh⟩

/-- C13, where it holds: no sequence of such steps makes a source/key pair available which was not available at the
start. Missing from the full property: steps with the key pattern `*`, and dicts naming pairs which are not available
(false, see above). -/
theorem select_never_widens_partial {c d : DC V} (hn : c.selection.keys.Nodup) (hk : SameKeys c.files)
    (h : NarrowingSteps c d) (s k : Str) (ha : Available d s k) : Available c s k := by
  have : d.selection.keys.Nodup ∧ (∀ f ∈ d.files, f ∈ c.files) ∧ ∀ s k, Available d s k → Available c s k := by
    clear ha
    induction h with
    | refl => exact ⟨hn, fun f hf => hf, fun s k h => h⟩
    | step h1 h2 ih =>
      obtain ⟨i1, i2, i3⟩ := ih
      have hk' : SameKeys _ := fun f hf g hg => hk f (i2 f hf) g (i2 g hg)
      obtain ⟨j1, j2, j3⟩ := narrowing_step i1 hk' h2
      exact ⟨j1, fun f hf => i2 f (j2 f hf), fun s k h => i3 s k (j3 s k h)⟩
  exact this.2.2 s k ha

/-- Two steps: a key is selected, then a source deselected. -/
example : NarrowingSteps exSel ((exSel.restrict [(ch! "S", some [ch! "x.value"]),
    (ch! "D:o", some [ch! "data.y"])]).restrict [(ch! "S", some [ch! "x.value"])]) := by
  refine .step (b := exSel.restrict [(ch! "S", some [ch! "x.value"]), (ch! "D:o", some [ch! "data.y"])])
    (.step (.refl _) (.globs (l := [(ch! "S", ch! "x"), (ch! "D:o", ch! "data.y")]) ?_ ?_))
    (.deselect (arg := .globs [(ch! "D:o", ch! "*")]) ?_)
  · decide
  · decide
  · decide

/-! ### C14 -/

/-- C14. `select` with a dict of non-empty key sets for sources of the collection gives exactly these. -/
theorem select_dict_exact_partial {c : DC V} (hc : NoConflict c.files) (l : List (Str × List Str))
    (hs : ∀ kv ∈ l, kv.1 ∈ c.allSources) (hne : ∀ kv ∈ l, kv.2 ≠ []) :
    ∃ d, c.select (.dict l) = .ok d ∧ d.trainIds = c.trainIds ∧
      (∀ s, s ∈ d.allSources ↔ s ∈ l.map Prod.fst) ∧
      (∀ s k, Available d s k ↔ ∃ kv ∈ l, kv.1 = s ∧ k ∈ kv.2) := by
  cases hf : foldE c.expandDictItem [] l with
  | error e =>
    exfalso
    rcases expandDict_error hf with ⟨-, kv, h1, h2⟩ | ⟨-, kv, h1, h2⟩
    · exact h2 (hs kv h1)
    · exact hne kv h1 h2
  | ok sel =>
    obtain ⟨h2, h3, h4, h5⟩ := expandDict_ok (by simp) hf
    have hkeys : ∀ s, s ∈ sel.keys ↔ s ∈ l.map Prod.fst := by
      intro s; rw [h4]; simp [Dict.keys]
    have hfile : ∀ s, s ∈ sel.keys → ∃ f ∈ c.files, Holds f s := by
      intro s hsk
      obtain ⟨kv, hkv, rfl⟩ := List.mem_map.1 ((hkeys s).1 hsk)
      exact (mem_allSources.1 (hs kv hkv)).2
    refine ⟨c.restrict sel, select_ok_iff.2 ⟨sel, hf, filesFor_noConflict hc _, rfl⟩, rfl, ?_, ?_⟩
    · intro s
      rw [restrict_allSources, ← hkeys]
      exact ⟨fun h => h.1, fun h => ⟨h, hfile s h⟩⟩
    · intro s k
      rw [available_restrict]
      constructor
      · rintro ⟨v, hv, ha⟩
        obtain ⟨ks, rfl⟩ := h2 s v hv
        simp only [reduceCtorEq, false_and, Option.some.injEq, exists_eq_left', false_or] at ha
        rcases (h5 s k).1 ⟨ks, hv, ha.1⟩ with ⟨ks', h, -⟩ | h
        · simp at h
        · exact h
      · intro h
        obtain ⟨ks, h1, h2⟩ := (h5 s k).2 (Or.inr h)
        exact ⟨_, h1, Or.inr ⟨ks, rfl, h2, hfile s (Dict.mem_keys_iff.2 ⟨_, h1⟩)⟩⟩

/-- C14. `select` with a dict fails with SourceNameError if it names a source which the collection does not have (and
no empty key sets). -/
theorem select_dict_missing_source {c : DC V} (l : List (Str × List Str)) (hne : ∀ kv ∈ l, kv.2 ≠ [])
    (hs : ∃ kv ∈ l, kv.1 ∉ c.allSources) : c.select (.dict l) = .error .sourceName := by
  obtain ⟨kv, h1, h2⟩ := hs
  unfold DC.select DC.expandSelection
  dsimp only
  cases hf : foldE c.expandDictItem [] l with
  | error e =>
    rcases expandDict_error hf with ⟨rfl, -⟩ | ⟨-, kv, h1, h2⟩
    · rfl
    · exact absurd h2 (hne kv h1)
  | ok sel =>
    exact absurd ((expandDict_ok (by simp) hf).2.1 kv h1).1 h2

/-- C14, last part, is false: an empty set of keys does not mean all keys of that source, but TypeError,
whatever else is in the dict (if it names only sources of the collection). -/
theorem select_dict_empty_keys_type_error {c : DC V} (l : List (Str × List Str))
    (hs : ∀ kv ∈ l, kv.1 ∈ c.allSources) (hne : ∃ kv ∈ l, kv.2 = []) : c.select (.dict l) = .error .type := by
  obtain ⟨kv, h1, h2⟩ := hne
  unfold DC.select DC.expandSelection
  dsimp only
  cases hf : foldE c.expandDictItem [] l with
  | error e =>
    rcases expandDict_error hf with ⟨-, kv, h1, h2⟩ | ⟨rfl, -⟩
    · exact absurd (hs kv h1) h2
    · rfl
  | ok sel =>
    exact absurd h2 ((expandDict_ok (by simp) hf).2.1 kv h1).2

example : exSel.select (.dict [(ch! "S", [ch! "x.value"]), (ch! "D:o", [])]) = .error .type ∧
    exSel.select (.dict [(ch! "S", [ch! "x.value"]), (ch! "E", [ch! "z"])]) = .error .sourceName ∧
    (exSel.select (.dict [(ch! "S", [ch! "x.value"])])).map DC.selection
      = .ok [(ch! "S", some [ch! "x.value"])] := by decide

/-! ### C15 -/

/-- C15. After `deselect(x)`, a pair remains exactly when it was available before and `select(x)` does not include it.
The selected keys must exist in the files, which a dict selection does not check. -/
theorem deselect_complement_partial {c dsel ddes : DC V} {arg : SelArg} (hn : c.selection.keys.Nodup)
    (hx : SelectedKeysExist c) (h1 : c.select arg = .ok dsel) (h2 : c.deselect arg = .ok ddes) (s k : Str) :
    Available ddes s k ↔ Available c s k ∧ ¬ Available dsel s k := by
  obtain ⟨sel, hs1, -, rfl⟩ := select_ok_iff.1 h1
  obtain ⟨desel, items, hd1, hd2, -, rfl⟩ := deselect_ok_iff.1 h2
  rw [hs1] at hd1
  obtain rfl := Except.ok.inj hd1
  rw [available_restrict, available_restrict (sel := sel)]
  simp only [deselect_get? hn hd2]
  cases hg : sel.get? s with
  | none =>
    simp only [DC.deselectItem, hg, reduceCtorEq, false_and, exists_false, not_false_eq_true, and_true,
      available_iff, Except.ok.injEq, Option.some.injEq, Prod.mk.injEq, true_and]
    constructor
    · rintro ⟨v, ⟨w, hw, rfl⟩, h⟩; exact ⟨_, hw, h⟩
    · rintro ⟨v, hw, h⟩; exact ⟨_, ⟨v, hw, rfl⟩, h⟩
  | some v' =>
    cases v' with
    | none =>
      simp only [DC.deselectItem, hg, Except.ok.injEq, reduceCtorEq, and_false, exists_false, false_and,
        Option.some.injEq, exists_eq_left', true_and, or_false, false_iff, not_and, not_not]
      intro ha
      obtain ⟨w, hw, ⟨-, h⟩ | ⟨ks, rfl, hkk, f, hf, hh⟩⟩ := available_iff.1 ha
      · exact h
      · obtain ⟨g, hg', hgc, hgs⟩ := head?_sourceIndex ⟨f, hf, hh⟩
        exact ⟨g, hg', hx s ks hw k hkk g hgc hgs⟩
    | some dk =>
      simp only [DC.deselectItem, hg, Option.some.injEq, exists_eq_left', reduceCtorEq, false_and, false_or]
      constructor
      · rintro ⟨v, ⟨w, hw, hi⟩, ha⟩
        split at hi
        · simp at hi
        · next ks hks =>
          simp at hi; subst hi
          simp only [reduceCtorEq, false_and, Option.some.injEq, exists_eq_left', false_or, List.mem_filter,
            decide_eq_true_eq] at ha
          obtain ⟨⟨hk1, hk2⟩, f, hf, hh⟩ := ha
          refine ⟨⟨mem_allSources.2 ⟨Dict.mem_keys_iff.2 ⟨w, hw⟩, f, hf, hh⟩, ?_⟩, fun h => ?_⟩
          · cases w with
            | none => exact ⟨ks, by simpa using hks, hk1⟩
            | some ks' =>
              simp at hks; subst hks
              exact ⟨ks'.dedup, by simp only [DC.keysForSource, hw], List.mem_dedup.2 hk1⟩
          · exact absurd h.1 (by simpa using hk2)
      · rintro ⟨⟨hsa, ks, hks, hk⟩, hno⟩
        obtain ⟨hkeys, hfile⟩ := mem_allSources.1 hsa
        obtain ⟨w, hw⟩ := Dict.mem_keys_iff.1 hkeys
        have hk2 : k ∉ dk := fun h => hno ⟨h, hfile⟩
        cases w with
        | none =>
          exact ⟨some (ks.filter (fun k => k ∉ dk)), ⟨none, hw, by simp only [hks]⟩,
            Or.inr ⟨_, rfl, by simp [hk, hk2], hfile⟩⟩
        | some ks' =>
          simp only [DC.keysForSource, hw, Except.ok.injEq] at hks
          subst hks
          exact ⟨some (ks'.filter (fun k => k ∉ dk)), ⟨some ks', hw, rfl⟩,
            Or.inr ⟨_, rfl, by simp [List.mem_dedup.1 hk, hk2], hfile⟩⟩

/-- C15 needs the hypothesis: with a key selected which does not exist, deselecting `*` removes it although
selecting `*` does not include it. -/
theorem deselect_missing_key :
    let c := exSel.restrict [(ch! "S", some [ch! "nokey"])]
    exSel.select (.dict [(ch! "S", [ch! "nokey"])]) = .ok c ∧
    c.keysForSource (ch! "S") = .ok [ch! "nokey"] ∧
    (c.select (.globs [(ch! "S", ch! "*")])).map (fun d => d.keysForSource (ch! "S"))
      = .ok (.ok [ch! "x.value", ch! "x.timestamp"]) ∧
    (c.deselect (.globs [(ch! "S", ch! "*")])).map DC.selection = .ok [] := by decide

example : (exSel.deselect (.globs [(ch! "S", ch! "x")])).map DC.selection
    = .ok [(ch! "S", some [ch! "x.timestamp"]), (ch! "D:o", none)] := by decide

/-! ### C16 -/

/-- C16. Merged selections include a pair exactly when one of them does. -/
theorem union_selections_exact (sels : List Selection) (hn : ∀ sel ∈ sels, sel.keys.Nodup) (s k : Str) :
    (Includes (unionSelections sels) s k ↔ ∃ sel ∈ sels, Includes sel s k) ∧
    (s ∈ (unionSelections sels).keys ↔ ∃ sel ∈ sels, s ∈ sel.keys) ∧ (unionSelections sels).keys.Nodup :=
  ⟨includes_union sels hn s k, mem_unionSelections_keys, unionSelections_nodup sels⟩

/-- C16. The order of the merged selections does not matter. -/
theorem union_selections_perm {sels sels' : List Selection} (hp : sels.Perm sels')
    (hn : ∀ sel ∈ sels, sel.keys.Nodup) (s k : Str) :
    (Includes (unionSelections sels) s k ↔ Includes (unionSelections sels') s k) ∧
    (s ∈ (unionSelections sels).keys ↔ s ∈ (unionSelections sels').keys) := by
  rw [includes_union sels hn, includes_union sels' (fun sel h => hn sel (hp.mem_iff.2 h)),
    mem_unionSelections_keys, mem_unionSelections_keys]
  exact ⟨⟨fun ⟨sel, h, h'⟩ => ⟨sel, hp.mem_iff.1 h, h'⟩, fun ⟨sel, h, h'⟩ => ⟨sel, hp.mem_iff.2 h, h'⟩⟩,
    ⟨fun ⟨sel, h, h'⟩ => ⟨sel, hp.mem_iff.1 h, h'⟩, fun ⟨sel, h, h'⟩ => ⟨sel, hp.mem_iff.2 h, h'⟩⟩⟩

/-- C16. Neither does the grouping. -/
theorem union_selections_grouping (a b : List Selection) (ha : ∀ sel ∈ a, sel.keys.Nodup)
    (hb : ∀ sel ∈ b, sel.keys.Nodup) (s k : Str) :
    (Includes (unionSelections [unionSelections a, unionSelections b]) s k ↔
      Includes (unionSelections (a ++ b)) s k) ∧
    (s ∈ (unionSelections [unionSelections a, unionSelections b]).keys ↔ s ∈ (unionSelections (a ++ b)).keys) := by
  have h1 : ∀ sel ∈ [unionSelections a, unionSelections b], sel.keys.Nodup := by
    intro sel hs
    rcases List.mem_cons.1 hs with rfl | hs
    · exact unionSelections_nodup a
    · obtain rfl := List.mem_singleton.1 hs
      exact unionSelections_nodup b
  have h2 : ∀ sel ∈ a ++ b, sel.keys.Nodup := by
    intro sel hs
    rcases List.mem_append.1 hs with hs | hs
    · exact ha sel hs
    · exact hb sel hs
  rw [includes_union _ h1, includes_union _ h2, mem_unionSelections_keys, mem_unionSelections_keys]
  simp only [List.mem_cons, List.not_mem_nil, or_false, exists_eq_or_imp, exists_eq_left, includes_union a ha,
    includes_union b hb, mem_unionSelections_keys, List.mem_append]
  constructor
  · constructor
    · rintro (⟨sel, h, h'⟩ | ⟨sel, h, h'⟩)
      · exact ⟨sel, Or.inl h, h'⟩
      · exact ⟨sel, Or.inr h, h'⟩
    · rintro ⟨sel, h | h, h'⟩
      · exact Or.inl ⟨sel, h, h'⟩
      · exact Or.inr ⟨sel, h, h'⟩
  · constructor
    · rintro (⟨sel, h, h'⟩ | ⟨sel, h, h'⟩)
      · exact ⟨sel, Or.inl h, h'⟩
      · exact ⟨sel, Or.inr h, h'⟩
    · rintro ⟨sel, h | h, h'⟩
      · exact Or.inl ⟨sel, h, h'⟩
      · exact Or.inr ⟨sel, h, h'⟩

example : unionSelections [[(ch! "S", some [ch! "x"]), (ch! "T", none)], [(ch! "S", some [ch! "y"])]]
    = [(ch! "T", none), (ch! "S", some [ch! "x", ch! "y"])] := by decide

end KD

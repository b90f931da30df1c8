/-
C134: narrowing sources and narrowing trains commute.
-/
import Verif.Spec.Commute
import Verif.Props.FileOrder
import Verif.Props.Selection

namespace KD

open KD.Spec

variable {V : Type}

/-! ### A collection within another -/

/-- Each file of `b` is a file of `c`, and for the sources in files of `b` the selections agree. -/
structure Within (c b : DC V) : Prop where
  files : ∀ f ∈ b.files, f ∈ c.files
  selection : ∀ source, (∃ f ∈ b.files, Holds f source) → SameChoice (c.selection.get? source) (b.selection.get? source)

/-- Files as in a run: all have the same keys for a source, listable, and it is of the same kind in all of them. -/
structure Regular (files : List (FileAccess V)) : Prop where
  conflict : NoConflict files
  keys : SameKeys files
  lists : ListsKeys files
  category : SameCategory files

theorem Regular.sublist {l l' : List (FileAccess V)} (h : Regular l) (hs : l'.Sublist l) : Regular l' :=
  ⟨h.conflict.sublist hs, fun f hf g hg => h.keys f (hs.mem hf) g (hs.mem hg), fun f hf => h.lists f (hs.mem hf),
    fun f hf g hg => h.category f (hs.mem hf) g (hs.mem hg)⟩

theorem sameChoice_trans {a b c} (h : SameChoice a b) (h' : SameChoice b c) : SameChoice a c := by
  cases h with
  | absent => exact h'
  | allKeys => exact h'
  | keys h => cases h' with
    | keys h' => exact .keys (fun k => (h k).trans (h' k))

theorem within_source {c b : DC V} (h : Within c b) {s : Str} (hs : s ∈ b.allSources) : s ∈ c.allSources := by
  obtain ⟨h1, f, hf, hh⟩ := mem_allSources.1 hs
  refine mem_allSources.2 ⟨?_, f, h.files f hf, hh⟩
  rw [Dict.mem_keys] at h1 ⊢
  exact (sameChoice_isSome (h.selection s ⟨f, hf, hh⟩)).2 h1

theorem within_control {c b : DC V} (h : Within c b) (hcat : SameCategory c.files) {s : Str} (hs : s ∈ b.allSources) :
    (s ∈ c.controlSources ↔ s ∈ b.controlSources) ∧ (s ∈ c.instrumentSources ↔ s ∈ b.instrumentSources) := by
  have hc := (mem_allSources.1 (within_source h hs)).1
  obtain ⟨h1, f, hf, hh⟩ := mem_allSources.1 hs
  rw [mem_controlSources, mem_controlSources, mem_instrumentSources, mem_instrumentSources]
  refine ⟨⟨?_, ?_⟩, ⟨?_, ?_⟩⟩
  · rintro ⟨-, g, hg, hgs⟩; exact ⟨h1, f, hf, (hcat g hg f (h.files f hf) s (Or.inl hgs) hh).1.1 hgs⟩
  · rintro ⟨-, g, hg, hgs⟩; exact ⟨hc, g, h.files g hg, hgs⟩
  · rintro ⟨-, g, hg, hgs⟩; exact ⟨h1, f, hf, (hcat g hg f (h.files f hf) s (Or.inr hgs) hh).2.1 hgs⟩
  · rintro ⟨-, g, hg, hgs⟩; exact ⟨hc, g, h.files g hg, hgs⟩

/-- The keys of a source in the smaller collection are listed by both, and are the same. -/
theorem within_keys {c b : DC V} (h : Within c b) (hr : Regular c.files) {s : Str} (hs : s ∈ b.allSources) :
    ∃ ks ks', c.keysForSource s = .ok ks ∧ b.keysForSource s = .ok ks' ∧ ∀ k, k ∈ ks ↔ k ∈ ks' := by
  obtain ⟨h1, f, hf, hh⟩ := mem_allSources.1 hs
  have hsel := h.selection s ⟨f, hf, hh⟩
  have first : ∀ d : DC V, (∃ f ∈ d.files, Holds f s) → (∀ f ∈ d.files, f ∈ c.files) →
      ∃ g, (d.sourceIndex s).head? = some g ∧ g ∈ c.files ∧ Holds g s := by
    rintro d ⟨f, hf, hh⟩ hd
    cases hi : d.sourceIndex s with
    | nil =>
      have : f ∈ d.sourceIndex s := mem_sourceIndex.2 ⟨hf, hh⟩
      rw [hi] at this; simp at this
    | cons g l =>
      have : g ∈ d.sourceIndex s := by rw [hi]; simp
      obtain ⟨e1, e2⟩ := mem_sourceIndex.1 this
      exact ⟨g, rfl, hd g e1, e2⟩
  obtain ⟨g, hg1, hg2, hg3⟩ := first c ⟨f, h.files f hf, hh⟩ (fun _ h => h)
  obtain ⟨g', hg1', hg2', hg3'⟩ := first b ⟨f, hf, hh⟩ h.files
  unfold DC.keysForSource
  rw [Dict.mem_keys] at h1
  cases hb : b.selection.get? s with
  | none => simp [hb] at h1
  | some v' =>
    rw [hb] at hsel
    generalize hv : c.selection.get? s = v at hsel
    cases hsel with
    | keys hkk => exact ⟨_, _, rfl, rfl, fun k => by simp [hkk k]⟩
    | allKeys =>
      simp only [hg1, hg1']
      obtain ⟨ks, hks⟩ := hr.lists g hg2 s hg3
      obtain ⟨ks', hks'⟩ := hr.lists g' hg2' s hg3'
      refine ⟨ks, ks', hks, hks', fun k => ?_⟩
      have := hr.keys g hg2 g' hg2' s hg3 hg3' k
      unfold FileHasKey at this
      constructor
      · intro hm
        obtain ⟨ks2, e1, e2⟩ := this.1 ⟨ks, hks, hm⟩
        rw [hks'] at e1; obtain rfl := Except.ok.inj e1; exact e2
      · intro hm
        obtain ⟨ks2, e1, e2⟩ := this.2 ⟨ks', hks', hm⟩
        rw [hks] at e1; obtain rfl := Except.ok.inj e1; exact e2

theorem within_refl (c : DC V) : Within c c := ⟨fun _ h => h, fun _ _ => sameChoice_refl _⟩

theorem keysReadable_regular {c : DC V} (hr : Regular c.files) : KeysReadable c := fun _ hs =>
  let ⟨ks, _, h, _⟩ := within_keys (within_refl c) hr hs
  ⟨ks, h⟩

/-! ### Expanding a selection -/

theorem within_globSource {c b : DC V} (h : Within c b) (hr : Regular c.files) {s : Str} (hs : s ∈ b.allSources) (kg : Str) :
    ∃ v v', c.globSource kg s = .ok (Option.map (fun x => (s, x)) v) ∧
      b.globSource kg s = .ok (Option.map (fun x => (s, x)) v') ∧ SameChoice v v' := by
  unfold DC.globSource
  by_cases hst : kg = ch! "*"
  · rw [if_pos hst, if_pos hst]; exact ⟨some none, some none, rfl, rfl, .allKeys⟩
  · rw [if_neg hst, if_neg hst]
    obtain ⟨ks, ks', h1, h2, hkk⟩ := within_keys h hr hs
    simp only [h1, h2]
    have hdec : decide (s ∈ c.controlSources) = decide (s ∈ b.controlSources) := by
      simp only [(within_control h hr.category hs).1]
    rw [hdec]
    generalize (if (!(endsWith kg (ch! ".value") || endsWith kg (ch! "*")) && decide (s ∈ b.controlSources)) = true
      then globMatchOptValue kg else globMatch kg) = p
    have hmem : ∀ k, k ∈ ks.filter p ↔ k ∈ ks'.filter p := by
      intro k; rw [List.mem_filter, List.mem_filter, hkk]
    have hemp : (ks.filter p).isEmpty = (ks'.filter p).isEmpty := by
      rw [Bool.eq_iff_iff, List.isEmpty_iff, List.isEmpty_iff, List.eq_nil_iff_forall_not_mem, List.eq_nil_iff_forall_not_mem]
      simp only [hmem]
    rw [← hemp]
    by_cases he : (ks.filter p).isEmpty = true
    · rw [if_pos he, if_pos he]; exact ⟨none, none, rfl, rfl, .absent⟩
    · rw [if_neg he, if_neg he]; exact ⟨some (some _), some (some _), rfl, rfl, .keys hmem⟩

theorem sameChoice_union {S S' : List Selection} {s : Str} (hall : (s, none) ∈ S.flatten ↔ (s, none) ∈ S'.flatten)
    (hany : (∃ w, (s, w) ∈ S.flatten) ↔ ∃ w, (s, w) ∈ S'.flatten)
    (hkeys : ∀ k, (∃ ks, (s, some ks) ∈ S.flatten ∧ k ∈ ks) ↔ ∃ ks, (s, some ks) ∈ S'.flatten ∧ k ∈ ks) :
    SameChoice ((unionSelections S).get? s) ((unionSelections S').get? s) := by
  by_cases ha : ∃ w, (s, w) ∈ S.flatten
  · have e1 := (unionSelections_get? S s _).2 ⟨ha, rfl⟩
    have e2 := (unionSelections_get? S' s _).2 ⟨hany.1 ha, rfl⟩
    rw [e1, e2]
    by_cases hn : (s, none) ∈ S.flatten
    · rw [if_pos hn, if_pos (hall.1 hn)]; exact .allKeys
    · rw [if_neg hn, if_neg (fun hn' => hn (hall.2 hn'))]
      exact .keys (fun k => by rw [mem_union_keys, mem_union_keys]; exact hkeys k)
  · have : ∀ {S : List Selection}, (¬ ∃ w, (s, w) ∈ S.flatten) → (unionSelections S).get? s = none := by
      intro S hS
      cases hg : (unionSelections S).get? s with
      | none => rfl
      | some v => exact absurd ((unionSelections_get? S s v).1 hg).1 hS
    rw [this ha, this (fun h' => ha (hany.2 h'))]
    exact .absent

/-- If the pair of patterns matches something in the smaller collection, it does in the larger. -/
theorem within_selectGlob {c b : DC V} (h : Within c b) (hr : Regular c.files) {sg kg : Str} {S : Selection}
    (hS : b.selectGlob sg kg = .ok S) : ∃ S', c.selectGlob sg kg = .ok S' := by
  cases hc : c.selectGlob sg kg with
  | ok S' => exact ⟨S', rfl⟩
  | error e =>
    exfalso
    obtain ⟨-, hno⟩ := selectGlob_error (keysReadable_regular hr) hc
    obtain ⟨hne, -, hm⟩ := selectGlob_ok hS
    obtain ⟨⟨s, v⟩, hsv⟩ := List.exists_mem_of_ne_nil _ hne
    obtain ⟨hs, hg, hgs⟩ := (hm s v).1 hsv
    obtain ⟨w, w', e1, e2, e3⟩ := within_globSource h hr hs kg
    rw [hno s (within_source h hs) hg] at e1
    rw [hgs] at e2
    cases w with
    | some _ => simp at e1
    | none => cases e3; simp at e2

/-- Sources not in the selection's collection are not in the selection. -/
theorem expand_held {c : DC V} {sel : SelArg} {S : Selection} (h : c.expandSelection sel = .ok S) {s : Str} (hs : s ∈ S.keys) :
    s ∈ c.allSources := by
  cases sel with
  | other => obtain rfl := Except.ok.inj h; simp [Dict.keys] at hs
  | globs l =>
    obtain ⟨sels, -, rfl, hsels⟩ := expandGlobs_ok h
    obtain ⟨sel', h1, h2⟩ := mem_unionSelections_keys.1 hs
    obtain ⟨kv, hkv, rfl⟩ := List.mem_map.1 h2
    obtain ⟨k, v⟩ := kv
    obtain ⟨p, -, h3, -⟩ := (hsels k v).1 (List.mem_flatten.2 ⟨sel', h1, hkv⟩)
    exact h3
  | dict l =>
    obtain ⟨-, h1, h2, -⟩ := expandDict_ok (acc := []) (fun s v hv => by simp at hv) h
    rcases (h2 s).1 hs with h3 | h3
    · simp [Dict.keys] at h3
    · obtain ⟨kv, hkv, rfl⟩ := List.mem_map.1 h3
      exact (h1 kv hkv).1

theorem foldE_congr_mem {α β : Type} {f g : β → α → R β} : ∀ {l : List α} {acc : β}, (∀ b, ∀ a ∈ l, f b a = g b a) →
    foldE f acc l = foldE g acc l := by
  intro l
  induction l with
  | nil => intro acc _; rfl
  | cons a l ih =>
    intro acc h
    simp only [foldE]
    rw [h acc a (by simp)]
    cases g acc a with
    | error e => rfl
    | ok b => exact ih (fun b a ha => h b a (by simp [ha]))

/-- What both collections make of an argument is the same for the sources in the smaller one. -/
theorem within_choices {c b : DC V} (h : Within c b) (hr : Regular c.files) {sel : SelArg} {S S' : Selection}
    (hS : c.expandSelection sel = .ok S) (hS' : b.expandSelection sel = .ok S') {s : Str} (hs : ∃ f ∈ b.files, Holds f s) :
    SameChoice (S.get? s) (S'.get? s) := by
  by_cases hsb : s ∈ b.allSources
  · cases sel with
    | other => obtain rfl := Except.ok.inj hS; obtain rfl := Except.ok.inj hS'; exact .absent
    | dict l =>
      have e1 := (expandDict_ok (acc := []) (fun s v hv => by simp at hv) hS').2.1
      have : foldE c.expandDictItem [] l = foldE b.expandDictItem [] l := by
        apply foldE_congr_mem
        intro res kv hkv
        unfold DC.expandDictItem
        simp only [within_source h (e1 kv hkv).1, (e1 kv hkv).1, not_true_eq_false, if_false]
      unfold DC.expandSelection at hS hS'
      simp only at hS hS'
      rw [this, hS'] at hS
      obtain rfl := Except.ok.inj hS
      exact sameChoice_refl _
    | globs l =>
      obtain ⟨sels, -, rfl, hm⟩ := expandGlobs_ok hS
      obtain ⟨sels', -, rfl, hm'⟩ := expandGlobs_ok hS'
      have one : ∀ kg v, c.globSource kg s = .ok (some (s, v)) → ∃ v', b.globSource kg s = .ok (some (s, v')) ∧
          SameChoice (some v) (some v') := by
        intro kg v hv
        obtain ⟨w, w', e1, e2, e3⟩ := within_globSource h hr hsb kg
        rw [hv] at e1
        cases w with
        | none => simp at e1
        | some w =>
          have : v = w := by simpa using e1
          subst this
          cases w' with
          | none => cases e3
          | some w' => exact ⟨w', e2, e3⟩
      have two : ∀ kg v, b.globSource kg s = .ok (some (s, v)) → ∃ v', c.globSource kg s = .ok (some (s, v')) ∧
          SameChoice (some v') (some v) := by
        intro kg v hv
        obtain ⟨w, w', e1, e2, e3⟩ := within_globSource h hr hsb kg
        rw [hv] at e2
        cases w' with
        | none => simp at e2
        | some w' =>
          have : v = w' := by simpa using e2
          subst this
          cases w with
          | none => cases e3
          | some w => exact ⟨w, e1, e3⟩
      have fwd : ∀ v, (s, v) ∈ sels.flatten → ∃ v', (s, v') ∈ sels'.flatten ∧ SameChoice (some v) (some v') := by
        intro v hv
        obtain ⟨p, hp, -, hg, e⟩ := (hm s v).1 hv
        obtain ⟨v', e1, e2⟩ := one p.2 v e
        exact ⟨v', (hm' s v').2 ⟨p, hp, hsb, hg, e1⟩, e2⟩
      have bwd : ∀ v, (s, v) ∈ sels'.flatten → ∃ v', (s, v') ∈ sels.flatten ∧ SameChoice (some v') (some v) := by
        intro v hv
        obtain ⟨p, hp, -, hg, e⟩ := (hm' s v).1 hv
        obtain ⟨v', e1, e2⟩ := two p.2 v e
        exact ⟨v', (hm s v').2 ⟨p, hp, within_source h hsb, hg, e1⟩, e2⟩
      refine sameChoice_union ⟨fun hv => ?_, fun hv => ?_⟩ ⟨fun ⟨v, hv⟩ => ?_, fun ⟨v, hv⟩ => ?_⟩
        (fun k => ⟨fun ⟨ks, hv, hk⟩ => ?_, fun ⟨ks, hv, hk⟩ => ?_⟩)
      · obtain ⟨v', e1, e2⟩ := fwd _ hv; cases e2; exact e1
      · obtain ⟨v', e1, e2⟩ := bwd _ hv; cases e2; exact e1
      · obtain ⟨v', e1, -⟩ := fwd _ hv; exact ⟨v', e1⟩
      · obtain ⟨v', e1, -⟩ := bwd _ hv; exact ⟨v', e1⟩
      · obtain ⟨v', e1, e2⟩ := fwd _ hv
        cases e2 with
        | keys hkk => exact ⟨_, e1, (hkk k).1 hk⟩
      · obtain ⟨v', e1, e2⟩ := bwd _ hv
        cases e2 with
        | keys hkk => exact ⟨_, e1, (hkk k).2 hk⟩
  · -- not in the smaller collection although in its files: it was not selected, in either
    have hnb : b.selection.get? s = none := by
      rw [Dict.get?_none_iff]
      intro hk
      obtain ⟨f, hf, hh⟩ := hs
      exact hsb (mem_allSources.2 ⟨hk, f, hf, hh⟩)
    have hnc : c.selection.get? s = none := by
      have := h.selection s hs
      rw [hnb] at this
      generalize c.selection.get? s = x at this
      cases this; rfl
    have e1 : S.get? s = none := by
      rw [Dict.get?_none_iff]
      intro hk
      exact (Dict.get?_none_iff.1 hnc) (mem_allSources.1 (expand_held hS hk)).1
    have e2 : S'.get? s = none := by
      rw [Dict.get?_none_iff]
      intro hk
      exact hsb (expand_held hS' hk)
    rw [e1, e2]; exact .absent

theorem within_expand {c b : DC V} (h : Within c b) (hr : Regular c.files) {sel : SelArg} {S' : Selection}
    (hS' : b.expandSelection sel = .ok S') : ∃ S, c.expandSelection sel = .ok S := by
  cases sel with
  | other => exact ⟨[], rfl⟩
  | dict l =>
    have e1 := (expandDict_ok (acc := []) (fun s v hv => by simp at hv) hS').2.1
    have : foldE c.expandDictItem [] l = foldE b.expandDictItem [] l := by
      apply foldE_congr_mem
      intro res kv hkv
      unfold DC.expandDictItem
      simp only [within_source h (e1 kv hkv).1, (e1 kv hkv).1, not_true_eq_false, if_false]
    exact ⟨S', this.trans hS'⟩
  | globs l =>
    obtain ⟨sels, hm, -, -⟩ := expandGlobs_ok hS'
    obtain ⟨sels', hm'⟩ := mapE_exists_ok (f := fun sk : Str × Str => c.selectGlob sk.1 sk.2) (l := l) (fun p hp => by
      obtain ⟨S, -, e⟩ := mapE_ok_all hm hp
      exact within_selectGlob h hr e)
    exact ⟨unionSelections sels', by unfold DC.expandSelection; simp only [hm']⟩

/-! ### Narrowing -/

/-- With regular files, deselecting fails only if the argument cannot be expanded. -/
theorem deselect_items {c : DC V} (hr : Regular c.files) {sel : SelArg} {D : Selection} (h : c.expandSelection sel = .ok D) :
    ∃ items, mapE (c.deselectItem D) c.selection = .ok items := by
  apply mapE_exists_ok
  rintro ⟨s, v⟩ -
  unfold DC.deselectItem
  simp only
  cases hD : D.get? s with
  | none => exact ⟨_, rfl⟩
  | some w =>
    cases w with
    | none => exact ⟨_, rfl⟩
    | some dk =>
      cases v with
      | some ks => exact ⟨_, rfl⟩
      | none =>
        obtain ⟨ks, hks⟩ := keysReadable_regular hr s (expand_held h (Dict.mem_keys_iff.2 ⟨_, hD⟩))
        simp only [hks]
        exact ⟨_, rfl⟩

/-- What deselecting leaves of a source which the smaller collection has in its files. -/
theorem within_deselected {c b : DC V} (h : Within c b) (hr : Regular c.files) {sel : SelArg} {D D' : Selection}
    (hD : c.expandSelection sel = .ok D) (hD' : b.expandSelection sel = .ok D') {items items' : List (Option (Str × Option (List Str)))}
    (hi : mapE (c.deselectItem D) c.selection = .ok items) (hi' : mapE (b.deselectItem D') b.selection = .ok items') {s : Str}
    (hs : ∃ f ∈ b.files, Holds f s) :
    SameChoice (Dict.get? (items.filterMap id) s) (Dict.get? (items'.filterMap id) s) := by
  have hsel := h.selection s hs
  have hDs := within_choices h hr hD hD' hs
  cases hv : c.selection.get? s with
  | none =>
    rw [hv] at hsel
    cases hv' : b.selection.get? s with
    | none => rw [((deselected_get? hi) s).1 hv, ((deselected_get? hi') s).1 hv']; exact .absent
    | some w => rw [hv'] at hsel; cases hsel
  | some v =>
    rw [hv] at hsel
    cases hv' : b.selection.get? s with
    | none => rw [hv'] at hsel; cases hsel
    | some v' =>
      rw [hv'] at hsel
      obtain ⟨o, ho, e⟩ := ((deselected_get? hi) s).2 v hv
      obtain ⟨o', ho', e'⟩ := ((deselected_get? hi') s).2 v' hv'
      rw [e, e']
      have hsb : s ∈ b.allSources := by
        obtain ⟨f, hf, hh⟩ := hs
        exact mem_allSources.2 ⟨Dict.mem_keys_iff.2 ⟨_, hv'⟩, f, hf, hh⟩
      obtain ⟨ks, ks', hks, hks', hkk⟩ := within_keys h hr hsb
      unfold DC.deselectItem at ho ho'
      simp only at ho ho'
      generalize D.get? s = x at ho hDs
      generalize D'.get? s = x' at ho' hDs
      cases hDs with
      | absent => obtain rfl := Except.ok.inj ho; obtain rfl := Except.ok.inj ho'; exact hsel
      | allKeys => obtain rfl := Except.ok.inj ho; obtain rfl := Except.ok.inj ho'; exact .absent
      | @keys x y hxy =>
        cases hsel with
        | @keys p q hpq =>
          obtain rfl := Except.ok.inj ho
          obtain rfl := Except.ok.inj ho'
          exact .keys (fun k => by simp only [List.mem_filter, hxy, hpq])
        | allKeys =>
          simp only [hks] at ho
          simp only [hks'] at ho'
          obtain rfl := Except.ok.inj ho
          obtain rfl := Except.ok.inj ho'
          exact .keys (fun k => by simp only [List.mem_filter, hxy, hkk])

/-- The argument of the call. -/
def callArg : NarrowCall → SelArg
  | .select sel => sel
  | .deselect sel => sel
  | .selectTrains _ => .other

/-- A call on sources, on regular files, succeeds if its argument can be expanded, and else raises the same. -/
theorem run_regular {c : DC V} (hr : Regular c.files) {call : NarrowCall} (hcall : call.ofSources = true) :
    (∀ e, c.expandSelection (callArg call) = .error e → call.run c = .error e) ∧
    ∀ D, c.expandSelection (callArg call) = .ok D → ∃ S, call.run c = .ok (c.restrict S) := by
  cases call with
  | selectTrains tr => simp [NarrowCall.ofSources] at hcall
  | select sel =>
    simp only [callArg, NarrowCall.run]
    refine ⟨fun e he => by unfold DC.select; rw [he], fun D hD => ⟨D, select_ok_iff.2 ⟨D, hD, filesFor_noConflict hr.conflict _, rfl⟩⟩⟩
  | deselect sel =>
    simp only [callArg, NarrowCall.run]
    refine ⟨fun e he => by unfold DC.deselect; rw [he], fun D hD => ?_⟩
    obtain ⟨items, hi⟩ := deselect_items hr hD
    exact ⟨_, deselect_ok_iff.2 ⟨D, items, hD, hi, filesFor_noConflict hr.conflict _, rfl⟩⟩

/-- If the call succeeds on both collections, what it leaves is the same for the sources in the smaller one. -/
theorem within_run {c b : DC V} (h : Within c b) (hr : Regular c.files) {call : NarrowCall} (hcall : call.ofSources = true)
    {S S' : Selection} (hS : call.run c = .ok (c.restrict S)) (hS' : call.run b = .ok (b.restrict S')) {s : Str}
    (hs : ∃ f ∈ b.files, Holds f s) : SameChoice (S.get? s) (S'.get? s) := by
  cases call with
  | selectTrains tr => simp [NarrowCall.ofSources] at hcall
  | select sel =>
    obtain ⟨D, h1, -, e1⟩ := select_ok_iff.1 hS
    obtain ⟨D', h2, -, e2⟩ := select_ok_iff.1 hS'
    have e1 : S = D := congrArg DC.selection e1
    have e2 : S' = D' := congrArg DC.selection e2
    rw [e1, e2]
    exact within_choices h hr h1 h2 hs
  | deselect sel =>
    obtain ⟨D, items, h1, h1', -, e1⟩ := deselect_ok_iff.1 hS
    obtain ⟨D', items', h2, h2', -, e2⟩ := deselect_ok_iff.1 hS'
    have e1 : S = items.filterMap id := congrArg DC.selection e1
    have e2 : S' = items'.filterMap id := congrArg DC.selection e2
    rw [e1, e2]
    exact within_deselected h hr h1 h2 h1' h2' hs

theorem run_restrict {c c' : DC V} {call : NarrowCall} (hcall : call.ofSources = true) (h : call.run c = .ok c') :
    ∃ S D, c.expandSelection (callArg call) = .ok D ∧ c' = c.restrict S := by
  cases call with
  | selectTrains tr => simp [NarrowCall.ofSources] at hcall
  | select sel => obtain ⟨D, h1, -, e1⟩ := select_ok_iff.1 h; exact ⟨D, D, h1, e1⟩
  | deselect sel => obtain ⟨D, items, h1, -, -, e1⟩ := deselect_ok_iff.1 h; exact ⟨_, D, h1, e1⟩

/-- The files kept for two selections which agree on the sources in the files. -/
theorem filter_same_choice {files : List (FileAccess V)} {S S' : Selection}
    (h : ∀ s, (∃ f ∈ files, Holds f s) → SameChoice (S.get? s) (S'.get? s)) :
    files.filter (fun f => f.allSources.any (fun s => s ∈ S.keys)) = files.filter (fun f => f.allSources.any (fun s => s ∈ S'.keys)) := by
  apply List.filter_congr
  intro f hf
  rw [Bool.eq_iff_iff, List.any_eq_true, List.any_eq_true]
  have hh : ∀ s ∈ f.allSources, (s ∈ S.keys ↔ s ∈ S'.keys) := by
    intro s hs
    rw [Dict.mem_keys, Dict.mem_keys]
    refine sameChoice_isSome (h s ⟨f, hf, ?_⟩)
    simpa [FileAccess.allSources, Holds] using hs
  constructor
  · rintro ⟨s, h1, h2⟩; exact ⟨s, h1, by simpa using (hh s h1).1 (by simpa using h2)⟩
  · rintro ⟨s, h1, h2⟩; exact ⟨s, h1, by simpa using (hh s h1).2 (by simpa using h2)⟩

theorem restrict_files (c : DC V) (S : Selection) :
    (c.restrict S).files = c.files.filter (fun f => f.allSources.any (fun s => s ∈ S.keys)) := rfl

/-! ### Equal views -/

theorem sameReach_refl (c : DC V) : SameReach c c := ⟨rfl, rfl, fun _ _ => sameChoice_refl _⟩

theorem sameReach_symm {a b : DC V} (h : SameReach a b) : SameReach b a :=
  ⟨h.files.symm, h.trains.symm, fun s hs => sameChoice_symm (h.selection s (h.files ▸ hs))⟩

theorem sameReach_trans {a b c : DC V} (h : SameReach a b) (h' : SameReach b c) : SameReach a c :=
  ⟨h.files.trans h'.files, h.trains.trans h'.trains, fun s hs =>
    sameChoice_trans (h.selection s hs) (h'.selection s (h.files ▸ hs))⟩

theorem sameReach_within {a b : DC V} (h : SameReach a b) : Within a b :=
  ⟨fun _ hf => h.files ▸ hf, fun s hs => h.selection s (h.files ▸ hs)⟩

/-- C134. Collections which differ only in selected sources without files stay so, whatever call is made. -/
theorem reach_step {a b a' : DC V} (h : SameReach a b) (hr : Regular a.files) {call : NarrowCall} (ha : call.run a = .ok a') :
    ∃ b', call.run b = .ok b' ∧ SameReach a' b' := by
  by_cases hcall : call.ofSources = true
  · have hrb : Regular b.files := h.files ▸ hr
    obtain ⟨S, D, hD, rfl⟩ := run_restrict hcall ha
    obtain ⟨D', hD'⟩ := within_expand (sameReach_within (sameReach_symm h)) hrb hD
    obtain ⟨S', hS'⟩ := (run_regular hrb hcall).2 D' hD'
    have hsame : ∀ s, (∃ f ∈ b.files, Holds f s) → SameChoice (S.get? s) (S'.get? s) :=
      fun s hs => within_run (sameReach_within h) hr hcall ha hS' hs
    have hsame' : ∀ s, (∃ f ∈ a.files, Holds f s) → SameChoice (S.get? s) (S'.get? s) := fun s hs => hsame s (h.files ▸ hs)
    refine ⟨_, hS', ?_, h.trains, fun s hs => ?_⟩
    · rw [restrict_files, restrict_files, ← h.files, filter_same_choice hsame']
    · obtain ⟨f, hf, hh⟩ := hs
      exact hsame' s ⟨f, (mem_filesFor.1 hf).1, hh⟩
  · cases call with
    | select sel => simp [NarrowCall.ofSources] at hcall
    | deselect sel => simp [NarrowCall.ofSources] at hcall
    | selectTrains tr =>
      obtain ⟨new, h1, rfl⟩ := (selectTrains_ok_iff hr.conflict).1 ha
      refine ⟨_, (selectTrains_ok_iff (h.files ▸ hr.conflict)).2 ⟨new, h.trains ▸ h1, rfl⟩, ?_, rfl, fun s hs => ?_⟩
      · simp only [h.files]
      · obtain ⟨f, hf, hh⟩ := hs
        exact h.selection s ⟨f, (List.mem_filter.1 hf).1, hh⟩

theorem reach_calls {calls : List NarrowCall} : ∀ {a b a' : DC V}, SameReach a b → Regular a.files → runCalls a calls = .ok a' →
    ∃ b', runCalls b calls = .ok b' ∧ SameReach a' b' := by
  induction calls with
  | nil => intro a b a' h _ ha; obtain rfl := Except.ok.inj ha; exact ⟨b, rfl, h⟩
  | cons call calls ih =>
    intro a b a' h hr ha
    unfold runCalls at ha ⊢
    cases hrun : call.run a with
    | error e => simp [hrun] at ha
    | ok a1 =>
      simp only [hrun] at ha
      obtain ⟨b1, h1, h2⟩ := reach_step h hr hrun
      simp only [h1]
      exact ih h2 (hr.sublist (narrow_files hrun)) ha

/-! ### The two orders -/

theorem runCalls_two {c r : DC V} {x y : NarrowCall} :
    runCalls c [x, y] = .ok r ↔ ∃ d, x.run c = .ok d ∧ y.run d = .ok r := by
  simp only [runCalls]
  cases x.run c with
  | error e => simp
  | ok d => cases hy : y.run d with
    | error e => simp [hy]
    | ok r' => simp [hy]

theorem trains_within {c b : DC V} (hr : Regular c.files) {tr : TrainRange} (h : c.selectTrains tr = .ok b) : Within c b := by
  obtain ⟨new, -, rfl⟩ := (selectTrains_ok_iff hr.conflict).1 h
  exact ⟨fun f hf => (List.mem_filter.1 hf).1, fun s _ => sameChoice_refl _⟩

/-- Both orders succeed: they give the same. -/
theorem orders_agree {c b : DC V} (hr : Regular c.files) {tr : TrainRange} (h : c.selectTrains tr = .ok b) {call : NarrowCall}
    (hcall : call.ofSources = true) {S S' : Selection} (h1 : call.run c = .ok (c.restrict S)) (h2 : call.run b = .ok (b.restrict S')) :
    ∃ ab, (c.restrict S).selectTrains tr = .ok ab ∧ SameReach ab (b.restrict S') := by
  have hw := trains_within hr h
  have hsame := fun s hs => within_run (s := s) hw hr hcall h1 h2 hs
  obtain ⟨new, hn, rfl⟩ := (selectTrains_ok_iff hr.conflict).1 h
  refine ⟨_, (selectTrains_ok_iff (filesFor_noConflict hr.conflict S)).2 ⟨new, hn, rfl⟩, ?_, rfl, fun s hs => ?_⟩
  · simp only [restrict_files]
    rw [List.filter_comm]
    exact filter_same_choice hsame
  · obtain ⟨f, hf, hh⟩ := hs
    obtain ⟨hf1, hf2⟩ := List.mem_filter.1 hf
    exact hsame s ⟨f, List.mem_filter.2 ⟨(mem_filesFor.1 hf1).1, hf2⟩, hh⟩

/-- C134. If selecting trains and then narrowing the sources (by `select` or `deselect`, with patterns or a dict) succeeds, so does
narrowing the sources first; and the result shows the same. -/
theorem trains_then_sources {c ba : DC V} (hr : Regular c.files) {tr : TrainRange} {call : NarrowCall} (hcall : call.ofSources = true)
    (h : runCalls c [.selectTrains tr, call] = .ok ba) : ∃ ab, runCalls c [call, .selectTrains tr] = .ok ab ∧ SameReach ab ba := by
  obtain ⟨b, h1, h2⟩ := runCalls_two.1 h
  obtain ⟨S', D', hD', rfl⟩ := run_restrict hcall h2
  obtain ⟨D, hD⟩ := within_expand (trains_within hr h1) hr hD'
  obtain ⟨S, hS⟩ := (run_regular hr hcall).2 D hD
  obtain ⟨ab, h3, h4⟩ := orders_agree hr h1 hcall hS h2
  exact ⟨ab, runCalls_two.2 ⟨_, hS, h3⟩, h4⟩

/-- Why `select` or `deselect` can fail: a pair of patterns matches nothing, or a source is not there. -/
inductive NotThere (c : DC V) : SelArg → PyErr → Prop
  | pattern {l p} : p ∈ l → PairMatchesNothing c p → NotThere c (.globs l) .value
  | source {l kv} : kv ∈ l → kv.1 ∉ c.allSources → NotThere c (.dict l) .sourceName

/-- The argument of a call of `select` or `deselect`. -/
def ArgOf : NarrowCall → SelArg → Prop
  | .select sel, arg => sel = arg
  | .deselect sel, arg => sel = arg
  | .selectTrains _, _ => False

/-- C134. If narrowing the sources and then selecting trains succeeds, the other order gives the same, or fails because the files with
these trains do not have some source or match for a pattern. -/
theorem sources_then_trains {c ab : DC V} (hr : Regular c.files) {tr : TrainRange} {call : NarrowCall} (hcall : call.ofSources = true)
    (h : runCalls c [call, .selectTrains tr] = .ok ab) : ∃ b, c.selectTrains tr = .ok b ∧
      ((∃ ba, call.run b = .ok ba ∧ SameReach ab ba) ∨ ∃ arg e, ArgOf call arg ∧ call.run b = .error e ∧ NotThere b arg e) := by
  obtain ⟨a, h1, h2⟩ := runCalls_two.1 h
  obtain ⟨S, D, hD, rfl⟩ := run_restrict hcall h1
  obtain ⟨new, hn, hab⟩ := (selectTrains_ok_iff (filesFor_noConflict hr.conflict S)).1 h2
  have hb := (selectTrains_ok_iff hr.conflict).2 ⟨new, hn, rfl⟩
  refine ⟨_, hb, ?_⟩
  have hrb : Regular (c.files.filter (fun f => f.trainIds.any (fun t => t ∈ new))) := hr.sublist List.filter_sublist
  generalize hbe : (⟨c.files.filter (fun f => f.trainIds.any (fun t => t ∈ new)), c.selection, new, false⟩ : DC V) = b at hb
  have hrb : Regular b.files := by rw [← hbe]; exact hrb
  have hw := trains_within hr hb
  have harg : ArgOf call (callArg call) := by
    cases call with
    | select sel => rfl
    | deselect sel => rfl
    | selectTrains tr => simp [NarrowCall.ofSources] at hcall
  cases he : b.expandSelection (callArg call) with
  | ok D' =>
    obtain ⟨S', hS'⟩ := (run_regular hrb hcall).2 D' he
    obtain ⟨ab', h3, h4⟩ := orders_agree hr hb hcall h1 hS'
    have h2 : (c.restrict S).selectTrains tr = .ok ab := h2
    rw [h2] at h3
    obtain rfl := Except.ok.inj h3
    exact .inl ⟨_, hS', h4⟩
  | error e =>
    refine .inr ⟨_, e, harg, (run_regular hrb hcall).1 e he, ?_⟩
    generalize callArg call = arg at he hD
    cases arg with
    | other => simp [DC.expandSelection] at he
    | globs l =>
      have hs : b.select (.globs l) = .error e := by unfold DC.select; rw [he]
      obtain ⟨g1, g2⟩ := select_globs_error hrb.conflict (keysReadable_regular hrb) l
      obtain rfl := g2 e hs
      obtain ⟨p, hp, hpm⟩ := g1.1 hs
      exact .pattern hp hpm
    | dict l =>
      have e1 := (expandDict_ok (acc := []) (fun s v hv => by simp at hv) hD).2.1
      rcases expandDict_error he with ⟨rfl, kv, h3, h4⟩ | ⟨rfl, kv, h3, h4⟩
      · exact .source h3 h4
      · exact absurd h4 (e1 kv h3).2

/-! ### Histories -/

theorem runCalls_append {x y : List NarrowCall} : ∀ {c r : DC V},
    runCalls c (x ++ y) = .ok r ↔ ∃ d, runCalls c x = .ok d ∧ runCalls d y = .ok r := by
  induction x with
  | nil => intro c r; simp [runCalls]
  | cons a x ih =>
    intro c r
    simp only [List.cons_append, runCalls]
    cases a.run c with
    | error e => simp
    | ok d => simp only; exact ih

theorem runCalls_cons {a : NarrowCall} {x : List NarrowCall} {c r : DC V} :
    runCalls c (a :: x) = .ok r ↔ ∃ d, a.run c = .ok d ∧ runCalls d x = .ok r := by
  rw [show a :: x = [a] ++ x from rfl, runCalls_append]
  simp only [runCalls]
  constructor
  · rintro ⟨d, h1, h2⟩
    cases hd : a.run c with
    | error e => simp [hd] at h1
    | ok d' => simp only [hd] at h1; obtain rfl := Except.ok.inj h1; exact ⟨_, rfl, h2⟩
  · rintro ⟨d, h1, h2⟩; exact ⟨d, by rw [h1], h2⟩

theorem runCalls_files {calls : List NarrowCall} : ∀ {c r : DC V}, runCalls c calls = .ok r → r.files.Sublist c.files := by
  induction calls with
  | nil => intro c r h; obtain rfl := Except.ok.inj h; exact List.Sublist.refl _
  | cons a l ih =>
    intro c r h
    obtain ⟨d, h1, h2⟩ := runCalls_cons.1 h
    exact (ih h2).trans (narrow_files h1)

/-- A train selection moves behind calls on sources. -/
theorem trains_behind {src : List NarrowCall} (hsrc : ∀ x ∈ src, x.ofSources = true) {tr : TrainRange} : ∀ {c r : DC V}, Regular c.files →
    runCalls c (.selectTrains tr :: src) = .ok r → ∃ r', runCalls c (src ++ [.selectTrains tr]) = .ok r' ∧ SameReach r r' := by
  induction src with
  | nil => intro c r _ h; exact ⟨r, h, sameReach_refl r⟩
  | cons x src ih =>
    intro c r hr h
    obtain ⟨b, h1, h2⟩ := runCalls_cons.1 h
    obtain ⟨ba, h3, h4⟩ := runCalls_cons.1 h2
    obtain ⟨ab, h5, h6⟩ := trains_then_sources hr (hsrc x (by simp)) (runCalls_two.2 ⟨b, h1, h3⟩)
    obtain ⟨a, h7, h8⟩ := runCalls_two.1 h5
    have hrba : Regular ba.files := (hr.sublist (narrow_files h1)).sublist (narrow_files h3)
    obtain ⟨r2, h9, h10⟩ := reach_calls (sameReach_symm h6) hrba h4
    obtain ⟨r3, h11, h12⟩ := ih (fun y hy => hsrc y (by simp [hy])) (hr.sublist (narrow_files h7))
      (runCalls_cons.2 ⟨ab, h8, h9⟩)
    exact ⟨r3, runCalls_cons.2 ⟨a, h7, h11⟩, sameReach_trans h10 h12⟩

/-- C134. Any sequence of calls of `select`, `deselect` and `select_trains` which succeeds gives the same as making first the calls on
sources, in their order, and then the calls on trains, in theirs. -/
theorem sources_first {calls : List NarrowCall} : ∀ {c r : DC V}, Regular c.files → runCalls c calls = .ok r →
    ∃ r', runCalls c (calls.filter (fun x => x.ofSources) ++ calls.filter (fun x => !x.ofSources)) = .ok r' ∧ SameReach r r' := by
  induction calls with
  | nil => intro c r _ h; exact ⟨r, h, sameReach_refl r⟩
  | cons x calls ih =>
    intro c r hr h
    obtain ⟨d, h1, h2⟩ := runCalls_cons.1 h
    obtain ⟨r', h3, h4⟩ := ih (hr.sublist (narrow_files h1)) h2
    by_cases hx : x.ofSources = true
    · rw [List.filter_cons_of_pos hx, List.filter_cons_of_neg (by simp [hx]), List.cons_append]
      exact ⟨r', runCalls_cons.2 ⟨d, h1, h3⟩, h4⟩
    · rw [List.filter_cons_of_neg hx, List.filter_cons_of_pos (by simpa using hx)]
      obtain ⟨e, h5, h6⟩ := runCalls_append.1 h3
      cases x with
      | select sel => simp [NarrowCall.ofSources] at hx
      | deselect sel => simp [NarrowCall.ofSources] at hx
      | selectTrains tr =>
        obtain ⟨e', h7, h8⟩ := trains_behind (src := calls.filter (fun x => x.ofSources))
          (fun y hy => (List.mem_filter.1 hy).2) hr (runCalls_cons.2 ⟨d, h1, h5⟩)
        have hre : Regular e.files := (hr.sublist (narrow_files h1)).sublist (runCalls_files h5)
        obtain ⟨r2, h9, h10⟩ := reach_calls h8 hre h6
        refine ⟨r2, ?_, sameReach_trans h4 h10⟩
        rw [show ∀ (a b : List NarrowCall), a ++ NarrowCall.selectTrains tr :: b = (a ++ [.selectTrains tr]) ++ b from
          fun a b => by simp]
        exact runCalls_append.2 ⟨e', h7, h9⟩

/-! ### Reading -/

/-- The collection without selected sources which no file has. -/
def trim (c : DC V) : DC V :=
  { c with selection := c.selection.filter (fun kv => c.files.any (fun f => decide (kv.1 ∈ f.controlSources ∨ kv.1 ∈ f.instrumentSources))) }

theorem get?_filter_keys {W : Type} (p : Str → Bool) (s : Str) : ∀ (l : Dict Str W),
    Dict.get? (l.filter (fun kv => p kv.1)) s = if p s then Dict.get? l s else none := by
  intro l
  induction l with
  | nil => simp [Dict.get?]
  | cons kv l ih =>
    obtain ⟨k, v⟩ := kv
    by_cases hk : p k = true
    · rw [List.filter_cons_of_pos (by simpa using hk), Dict.get?_cons, Dict.get?_cons]
      by_cases hks : k = s
      · subst hks; rw [if_pos rfl, if_pos hk, if_pos rfl]
      · rw [if_neg hks, if_neg hks]; exact ih
    · rw [List.filter_cons_of_neg (by simpa using hk), Dict.get?_cons]
      by_cases hks : k = s
      · subst hks; rw [ih, if_neg hk, if_neg hk]
      · rw [if_neg hks]; exact ih

theorem trim_selection (c : DC V) (s : Str) :
    ((∃ f ∈ c.files, Holds f s) → (trim c).selection.get? s = c.selection.get? s) ∧
    ((¬ ∃ f ∈ c.files, Holds f s) → (trim c).selection.get? s = none) := by
  have e : (trim c).selection.get? s = if (c.files.any (fun f => decide (s ∈ f.controlSources ∨ s ∈ f.instrumentSources))) = true
      then c.selection.get? s else none :=
    get?_filter_keys (fun k => c.files.any (fun f => decide (k ∈ f.controlSources ∨ k ∈ f.instrumentSources))) s c.selection
  have hiff : (c.files.any (fun f => decide (s ∈ f.controlSources ∨ s ∈ f.instrumentSources))) = true ↔ ∃ f ∈ c.files, Holds f s := by
    simp [Holds]
  exact ⟨fun h => by rw [e, if_pos (hiff.2 h)], fun h => by rw [e, if_neg (fun h' => h (hiff.1 h'))]⟩

theorem trim_keys {c : DC V} {s : Str} (h : ∃ f ∈ c.files, Holds f s) : s ∈ (trim c).selection.keys ↔ s ∈ c.selection.keys := by
  rw [Dict.mem_keys, Dict.mem_keys, (trim_selection c s).1 h]

theorem trim_controlSources (c : DC V) : (trim c).controlSources = c.controlSources := by
  unfold DC.controlSources
  congr 1
  show List.flatMap _ c.files = _
  rw [List.flatMap_def, List.flatMap_def]
  congr 1
  apply List.map_congr_left
  intro f hf
  apply List.filter_congr
  intro s hs
  simp only [trim_keys ⟨f, hf, Or.inl hs⟩]

theorem trim_instrumentSources (c : DC V) : (trim c).instrumentSources = c.instrumentSources := by
  unfold DC.instrumentSources
  congr 1
  show List.flatMap _ c.files = _
  rw [List.flatMap_def, List.flatMap_def]
  congr 1
  apply List.map_congr_left
  intro f hf
  apply List.filter_congr
  intro s hs
  simp only [trim_keys ⟨f, hf, Or.inr hs⟩]

theorem trim_allSources (c : DC V) : (trim c).allSources = c.allSources := by
  unfold DC.allSources; rw [trim_controlSources, trim_instrumentSources]

theorem trim_keysForSource {c : DC V} {s : Str} (h : ∃ f ∈ c.files, Holds f s) : (trim c).keysForSource s = c.keysForSource s := by
  unfold DC.keysForSource
  rw [(trim_selection c s).1 h]
  rfl

theorem trim_available (c : DC V) (s k : Str) : Available (trim c) s k ↔ Available c s k := by
  unfold Available
  rw [trim_allSources]
  constructor
  · rintro ⟨h1, h2⟩; rw [trim_keysForSource (mem_allSources.1 h1).2] at h2; exact ⟨h1, h2⟩
  · rintro ⟨h1, h2⟩; refine ⟨h1, ?_⟩; rw [trim_keysForSource (mem_allSources.1 h1).2]; exact h2

theorem trim_checkField (c : DC V) (s k : Str) : (trim c).checkField s k = c.checkField s k := by
  unfold DC.checkField
  rw [trim_allSources]
  by_cases hs : s ∈ c.allSources
  · rw [trim_keysForSource (mem_allSources.1 hs).2]
  · rw [if_pos hs, if_pos hs]

theorem trim_findDataChunks (c : DC V) (s k : Str) : (trim c).findDataChunks s k = c.findDataChunks s k := by
  have : (trim c).chunksOfFile s k = c.chunksOfFile s k := by
    funext f
    unfold DC.chunksOfFile DC.keyGroup
    rw [trim_instrumentSources]
    rfl
  unfold DC.findDataChunks
  rw [this]
  rfl

theorem trim_getArray {W : Type} (c : DC V) (s k : Str) (roi : V → W) : (trim c).getArray s k roi = c.getArray s k roi := by
  unfold DC.getArray; rw [trim_checkField, trim_findDataChunks]

theorem trim_getDaskArray (c : DC V) (s k : Str) : (trim c).getDaskArray s k = c.getDaskArray s k := by
  unfold DC.getDaskArray; rw [trim_findDataChunks]

theorem trim_getDataCounts (c : DC V) (s k : Str) : (trim c).getDataCounts s k = c.getDataCounts s k := by
  have : (trim c).countsOfFile s k = c.countsOfFile s k := by
    funext f; unfold DC.countsOfFile; rw [trim_controlSources]
  unfold DC.getDataCounts; rw [trim_checkField, this]; rfl

theorem trim_getSeries (c : DC V) (s k : Str) : (trim c).getSeries s k = c.getSeries s k := by
  have : (trim c).seriesOfFile s k = c.seriesOfFile s k := by
    funext f; unfold DC.seriesOfFile; rw [trim_controlSources]
  unfold DC.getSeries; rw [trim_checkField, this]; rfl

theorem control_held {c : DC V} {s : Str} (h : s ∈ c.controlSources) : ∃ f ∈ c.files, Holds f s :=
  let ⟨_, f, hf, hs⟩ := mem_controlSources.1 h
  ⟨f, hf, Or.inl hs⟩

theorem instrument_held {c : DC V} {s : Str} (h : s ∈ c.instrumentSources) : ∃ f ∈ c.files, Holds f s :=
  let ⟨_, f, hf, hs⟩ := mem_instrumentSources.1 h
  ⟨f, hf, Or.inr hs⟩

theorem trim_trainFromId (c : DC V) (t : Nat) : (trim c).trainFromId t = c.trainFromId t := by
  unfold DC.trainFromId
  have e1 : mapE ((trim c).trainControl t) (trim c).controlSources = mapE (c.trainControl t) c.controlSources := by
    rw [trim_controlSources]
    apply mapE_congr
    intro s hs
    unfold DC.trainControl
    rw [trim_keysForSource (control_held hs)]
    rfl
  have e2 : mapE ((trim c).trainInstrument t) (trim c).instrumentSources = mapE (c.trainInstrument t) c.instrumentSources := by
    rw [trim_instrumentSources]
    apply mapE_congr
    intro s hs
    unfold DC.trainInstrument
    rw [trim_keysForSource (instrument_held hs)]
    rfl
  rw [e1, e2]
  rfl

theorem anyE_congr {α : Type} {f g : α → R Bool} : ∀ {l : List α}, (∀ a ∈ l, f a = g a) → anyE f l = anyE g l := by
  intro l
  induction l with
  | nil => intro _; rfl
  | cons a l ih =>
    intro h
    simp only [anyE]
    rw [h a (by simp), ih (fun b hb => h b (by simp [hb]))]

theorem trim_checkDataMissing (c : DC V) (t : Nat) : (trim c).checkDataMissing t = c.checkDataMissing t := by
  unfold DC.checkDataMissing
  rw [trim_controlSources, trim_instrumentSources]
  have : ∀ s ∈ c.instrumentSources, (trim c).instrumentMissing t s = c.instrumentMissing t s := by
    intro s hs
    unfold DC.instrumentMissing
    rw [trim_keysForSource (instrument_held hs)]
    rfl
  rw [anyE_congr this]
  rfl

theorem trim_trains {c : DC V} (hc : NoConflict c.files) (req : Bool) : (trim c).trains none none req = c.trains none none req := by
  rw [trains_pure hc, trains_pure (show NoConflict (trim c).files from hc)]
  have hkey : ∀ (entry : FileAccess V × Nat × Dataset V → Str → R (Entry V)) s t, pureKey (trim c) entry s t = pureKey c entry s t := by
    intro entry s t
    funext k
    unfold pureKey pureFind iterSection
    rw [trim_controlSources]
    rfl
  have hsrc : ∀ (entry : Str → FileAccess V × Nat × Dataset V → Str → R (Entry V)) t s, (∃ f ∈ c.files, Holds f s) →
      pureSource (trim c) entry t s = pureSource c entry t s := by
    intro entry t s hs
    unfold pureSource
    rw [trim_keysForSource hs, hkey]
  have hass : pureAssemble (trim c) = pureAssemble c := by
    funext t
    unfold pureAssemble
    rw [trim_controlSources, trim_instrumentSources, mapE_congr (fun s hs => hsrc _ t s (control_held hs)),
      mapE_congr (fun s hs => hsrc _ t s (instrument_held hs))]
  have hstep : pureStep (trim c) req = pureStep c req := by
    funext t
    unfold pureStep
    rw [hass, trim_checkDataMissing]
  rw [hstep]
  rfl

theorem trim_goodData {c : DC V} (hg : GoodData c) : GoodData (trim c) := by
  refine ⟨fun s hs => ?_, fun s hs k ha => ?_, fun s hs => ?_⟩
  · rw [trim_allSources] at hs
    rw [trim_keysForSource (mem_allSources.1 hs).2]
    exact hg.keys s hs
  · rw [trim_instrumentSources] at hs
    exact hg.instr s hs k ((trim_available c s k).1 ha)
  · rw [trim_controlSources] at hs
    rw [trim_instrumentSources]
    exact ⟨(hg.ctrl s hs).1, fun k ha => (hg.ctrl s hs).2 k ((trim_available c s k).1 ha)⟩

theorem trim_same {a b : DC V} (h : SameReach a b) : SameContents (trim a) (trim b) := by
  refine ⟨?_, h.trains, fun s => ?_⟩
  · show a.files.Perm b.files
    rw [h.files]
  · by_cases hs : ∃ f ∈ a.files, Holds f s
    · rw [(trim_selection a s).1 hs, (trim_selection b s).1 (h.files ▸ hs)]; exact h.selection s hs
    · rw [(trim_selection a s).2 hs, (trim_selection b s).2 (h.files ▸ hs)]; exact .absent

/-- C134. Such collections show the same sources, keys and data. -/
theorem reach_reads {a b : DC V} (h : SameReach a b) (hr : Regular a.files) :
    (∀ s, s ∈ a.controlSources ↔ s ∈ b.controlSources) ∧ (∀ s, s ∈ a.instrumentSources ↔ s ∈ b.instrumentSources) ∧
    (∀ s k, Available a s k ↔ Available b s k) ∧
    (∀ {W : Type} s k (roi : V → W) r, a.getArray s k roi = .ok r → b.getArray s k roi = .ok r) ∧
    (∀ s k r, a.getDaskArray s k = .ok r → b.getDaskArray s k = .ok r) ∧
    (∀ s k r, a.getDataCounts s k = .ok r → b.getDataCounts s k = .ok r) ∧
    (∀ s k r, a.getSeries s k = .ok r → b.getSeries s k = .ok r) ∧
    (∀ t t' m, a.trainFromId t = .ok (t', m) → ∃ m', b.trainFromId t = .ok (t', m') ∧ SameTrain m m') ∧
    (∀ req l, (req = true → GoodData a) → a.trains none none req = .ok l → ∃ l', b.trains none none req = .ok l' ∧
      List.Forall₂ (fun x y => x.1 = y.1 ∧ SameTrain x.2 y.2) l l') := by
  have hs := trim_same h
  have hc : NoConflict (trim a).files := hr.conflict
  have hk : SameKeys (trim a).files := hr.keys
  have hl : ListsKeys (trim a).files := hr.lists
  have hcb : NoConflict b.files := h.files ▸ hr.conflict
  obtain ⟨h1, h2, h3⟩ := same_available hs hk
  refine ⟨fun s => ?_, fun s => ?_, fun s k => ?_, ?_, ?_, ?_, ?_, ?_, ?_⟩
  · rw [← trim_controlSources a, ← trim_controlSources b]; exact h1 s
  · rw [← trim_instrumentSources a, ← trim_instrumentSources b]; exact h2 s
  · rw [← trim_available a, ← trim_available b]; exact h3 s k
  · intro W s k roi r hr'
    rw [← trim_getArray] at hr' ⊢; exact same_array hs hc hk hr'
  · intro s k r hr'
    rw [← trim_getDaskArray] at hr' ⊢; exact same_dask_array hs hc hr'
  · intro s k r hr'
    rw [← trim_getDataCounts] at hr' ⊢; exact same_counts hs hc hk hr'
  · intro s k r hr'
    rw [← trim_getSeries] at hr' ⊢; exact same_series hs hc hk hr'
  · intro t t' m hm
    rw [← trim_trainFromId] at hm ⊢; exact same_train hs hc hk hl hm
  · intro req l hreq hm
    rw [← trim_trains hr.conflict] at hm
    rw [← trim_trains hcb]
    exact same_trains hs hc hk hl (fun e => trim_goodData (hreq e)) hm

/-! ### Examples -/

theorem exWrite_regular : Regular exWrite.files := by
  obtain ⟨h1, h2, h3⟩ := exWrite_files
  refine ⟨h1, h2, h3, fun f hf g hg s hfs hgs => ?_⟩
  have hk : ∀ f ∈ exWrite.files, ∀ s, Holds f s → (s = ch! "D:o" ∧ f.controlSources = [] ∧ f.instrumentSources = [ch! "D:o"]) ∨
      (s = ch! "C" ∧ f.controlSources = [ch! "C"] ∧ f.instrumentSources = []) := by
    intro f hf s hh
    rcases List.mem_cons.1 hf with rfl | hf
    · rcases hh with h | h
      · exact absurd h (List.not_mem_nil)
      · exact .inl ⟨List.mem_singleton.1 h, rfl, rfl⟩
    rcases List.mem_cons.1 hf with rfl | hf
    · rcases hh with h | h
      · exact absurd h (List.not_mem_nil)
      · exact .inl ⟨List.mem_singleton.1 h, rfl, rfl⟩
    · obtain rfl := List.mem_singleton.1 hf
      rcases hh with h | h
      · exact .inr ⟨List.mem_singleton.1 h, rfl, rfl⟩
      · exact absurd h (List.not_mem_nil)
  rcases hk f hf s hfs with ⟨rfl, a1, a2⟩ | ⟨rfl, a1, a2⟩ <;> rcases hk g hg _ hgs with ⟨e, b1, b2⟩ | ⟨e, b1, b2⟩
  · rw [a1, a2, b1, b2]; exact ⟨Iff.rfl, Iff.rfl⟩
  · exact absurd e (by decide)
  · exact absurd e (by decide)
  · rw [a1, a2, b1, b2]; exact ⟨Iff.rfl, Iff.rfl⟩

/-- Trains 2 and 3, then all but the control source, then train 3: the same as with the sources first, and the data read is the same. -/
example : ∃ r, runCalls exWrite [.deselect (.globs [(ch! "C", ch! "*")]), .selectTrains (.idList [2, 3]), .selectTrains (.idList [3])] = .ok r ∧
    r.getArray (ch! "D:o") (ch! "data.y") id = .ok ⟨[20], some [3], [], 0⟩ := by
  have h : runCalls exWrite [.selectTrains (.idList [2, 3]), .deselect (.globs [(ch! "C", ch! "*")]), .selectTrains (.idList [3])] =
      .ok ⟨[exInst (ch! "b") [3, 4] [0, 1] [1, 0] [20]], [(ch! "D:o", none)], [3], false⟩ := by decide
  obtain ⟨r, h1, h2⟩ := sources_first exWrite_regular h
  exact ⟨r, h1, (reach_reads h2 (exWrite_regular.sublist (runCalls_files h))).2.2.2.1 _ _ _ _ (by decide)⟩

/-- Files of which only one has train 2: the control source. -/
def exLateTrain : DC Nat where
  files := [exInst (ch! "a") [1] [0] [2] [10, 11], exCtrl (ch! "c") [1, 2] [0, 1] [1, 1] [31, 32]]
  selection := [(ch! "D:o", none), (ch! "C", none)]
  trainIds := [1, 2]
  ctxCloses := true

/-- C134. The calls cannot always be made in the other order: after selecting trains for which an instrument source has no file, selecting
the source by name or by a pattern raises an exception, although selecting the sources first goes through. -/
theorem trains_first_fails_wrong :
    (∃ r, runCalls exLateTrain [.select (.globs [(ch! "D:o", ch! "*"), (ch! "C", ch! "*")]), .selectTrains (.idList [2])] = .ok r) ∧
    runCalls exLateTrain [.selectTrains (.idList [2]), .select (.globs [(ch! "D:o", ch! "*"), (ch! "C", ch! "*")])] = .error .value ∧
    (∃ r, runCalls exLateTrain [.select (.dict [(ch! "D:o", [ch! "data.y"])]), .selectTrains (.idList [2])] = .ok r) ∧
    runCalls exLateTrain [.selectTrains (.idList [2]), .select (.dict [(ch! "D:o", [ch! "data.y"])])] = .error .sourceName :=
  ⟨⟨⟨[exCtrl (ch! "c") [1, 2] [0, 1] [1, 1] [31, 32]], [(ch! "D:o", none), (ch! "C", none)], [2], false⟩, by decide⟩, by decide,
    ⟨⟨[], [(ch! "D:o", some [ch! "data.y"])], [2], false⟩, by decide⟩, by decide⟩

end KD

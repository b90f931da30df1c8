/-
C135: joining parts of a collection.
-/
import Verif.Props.DerivedGaps
import Verif.Props.Commute
import Verif.Props.History
import Verif.Lemmas.Writer

namespace KD

open KD.Spec

variable {V : Type}

theorem namesAgree_parts {c : DC V} (hn : DifferentNames c) {ps : List (DC V)} (hp : ∀ p ∈ ps, ∀ f ∈ p.files, f ∈ c.files) :
    NamesAgree ps := by
  intro a ha b hb f hf g hg he
  exact List.inj_on_of_nodup_map hn (hp a ha f hf) (hp b hb g hg) he

/-- A union of collections whose files are files of `c` has just those files, in some order. -/
theorem union_parts_files {o : List (FileAccess V) → List (FileAccess V)} (ho : IsOrder o) {c : DC V} (hn : DifferentNames c)
    {ps : List (DC V)} (hp : ∀ p ∈ ps, ∀ f ∈ p.files, f ∈ c.files) {P : FileAccess V → Bool}
    (hP : ∀ f ∈ c.files, P f = true ↔ ∃ p ∈ ps, f ∈ p.files) :
    (c.files.filter P).Perm (o (dedupFiles (ps.flatMap DC.files))) := by
  have hnd : c.files.Nodup := List.Nodup.of_map _ hn
  rw [List.perm_ext_iff_of_nodup (hnd.filter _) ((union_names_nodup ho _).of_map _)]
  intro f
  rw [mem_union_files ho (namesAgree_parts hn hp), List.mem_filter]
  constructor
  · rintro ⟨h1, h2⟩; exact (hP f h1).1 h2
  · rintro ⟨p, h1, h2⟩; exact ⟨hp p h1 f h2, (hP f (hp p h1 f h2)).2 ⟨p, h1, h2⟩⟩

/-! ### Parts by trains -/

theorem union_same_selection {S : Selection} (hS : S.keys.Nodup) {Ss : List Selection} (hne : Ss ≠ []) (h : ∀ x ∈ Ss, x = S) :
    SameSelection S (unionSelections Ss) := by
  have hmem : ∀ s w, (s, w) ∈ Ss.flatten ↔ S.get? s = some w := by
    intro s w
    rw [Dict.get?_eq_some_iff hS]
    constructor
    · intro hx; obtain ⟨x, h1, h2⟩ := List.mem_flatten.1 hx; rw [h x h1] at h2; exact h2
    · intro hx
      obtain ⟨x, hx'⟩ := List.exists_mem_of_ne_nil _ hne
      exact List.mem_flatten.2 ⟨x, hx', by rw [h x hx']; exact hx⟩
  intro s
  cases hs : S.get? s with
  | none =>
    have : (unionSelections Ss).get? s = none := by
      cases hu : (unionSelections Ss).get? s with
      | none => rfl
      | some v =>
        obtain ⟨⟨w, hw⟩, -⟩ := (unionSelections_get? Ss s v).1 hu
        rw [hmem, hs] at hw; simp at hw
    rw [this]; exact .absent
  | some v =>
    rw [(unionSelections_get? Ss s _).2 ⟨⟨v, (hmem s v).2 hs⟩, rfl⟩]
    cases v with
    | none => rw [if_pos ((hmem s none).2 hs)]; exact .allKeys
    | some ks =>
      rw [if_neg (fun hx => by rw [hmem, hs] at hx; simp at hx)]
      refine .keys (fun k => ?_)
      rw [mem_union_keys]
      simp only [hmem, hs]
      exact ⟨fun hk => ⟨ks, rfl, hk⟩, fun ⟨ks', h1, h2⟩ => by
        have : ks = ks' := by simpa using h1
        rw [this]; exact h2⟩

/-- C135. Joining parts selected by trains gives the same as selecting all their trains at once. -/
theorem union_train_parts {o : List (FileAccess V) → List (FileAccess V)} (ho : IsOrder o) {c w p : DC V} {ps : List (DC V)}
    (hn : DifferentNames c) (hc : NoConflict c.files) (hs : c.selection.keys.Nodup)
    (hp : ∀ x ∈ p :: ps, ∃ tr, c.selectTrains tr = .ok x) {tr : TrainRange} (hw : c.selectTrains tr = .ok w)
    (hord : w.trainIds.Pairwise (· < ·)) (hall : ∀ t, t ∈ w.trainIds ↔ ∃ x ∈ p :: ps, t ∈ x.trainIds) :
    ∃ u, p.union o ps = .ok u ∧ SameContents w u := by
  have hparts : ∀ x ∈ p :: ps, x.selection = c.selection ∧
      x.files = c.files.filter (fun f => f.trainIds.any (fun t => t ∈ x.trainIds)) := by
    intro x hx
    obtain ⟨tr, htr⟩ := hp x hx
    obtain ⟨new, -, rfl⟩ := (selectTrains_ok_iff hc).1 htr
    exact ⟨rfl, rfl⟩
  obtain ⟨new, -, hwe⟩ := (selectTrains_ok_iff hc).1 hw
  subst hwe
  have hfiles : (c.files.filter (fun f => f.trainIds.any (fun t => t ∈ new))).Perm (o (dedupFiles ((p :: ps).flatMap DC.files))) := by
    refine union_parts_files ho hn (fun x hx f hf => ?_) (fun f hf => ?_)
    · rw [(hparts x hx).2] at hf; exact (List.mem_filter.1 hf).1
    · rw [List.any_eq_true]
      constructor
      · rintro ⟨t, h1, h2⟩
        obtain ⟨x, hx, htx⟩ := (hall t).1 (by simpa using h2)
        exact ⟨x, hx, by rw [(hparts x hx).2, List.mem_filter, List.any_eq_true]; exact ⟨hf, t, h1, by simpa using htx⟩⟩
      · rintro ⟨x, hx, hfx⟩
        rw [(hparts x hx).2, List.mem_filter, List.any_eq_true] at hfx
        obtain ⟨-, t, h1, h2⟩ := hfx
        exact ⟨t, h1, by simpa using (hall t).2 ⟨x, hx, by simpa using h2⟩⟩
  refine ⟨_, union_ok_iff.2 ⟨(noConflict_perm hfiles).1 (hc.sublist List.filter_sublist), rfl⟩, hfiles, ?_, ?_⟩
  · refine eq_of_pairwise_lt hord (sortedSet_pairwise _) (fun t => ?_)
    rw [mem_sortedSet, List.mem_flatMap]
    exact hall t
  · refine union_same_selection hs (by simp) (fun x hx => ?_)
    obtain ⟨y, hy, rfl⟩ := List.mem_map.1 hx
    exact (hparts y hy).1

/-! ### Parts by sources -/

/-- Parts made from one collection by choosing sources and keys, joined: the choices are merged. -/
theorem union_restrict {o : List (FileAccess V) → List (FileAccess V)} (ho : IsOrder o) {c : DC V} (hn : DifferentNames c)
    (hc : NoConflict c.files) (hord : c.trainIds.Pairwise (· < ·)) (S : Selection) (Ss : List Selection) :
    ∃ u, (c.restrict S).union o (Ss.map c.restrict) = .ok u ∧ SameContents (c.restrict (unionSelections (S :: Ss))) u := by
  have hfiles : (c.filesFor (unionSelections (S :: Ss))).Perm (o (dedupFiles ((c.restrict S :: Ss.map c.restrict).flatMap DC.files))) := by
    refine union_parts_files ho hn (fun x hx f hf => ?_) (fun f hf => ?_)
    · rw [← List.map_cons] at hx
      obtain ⟨y, -, rfl⟩ := List.mem_map.1 hx
      exact (mem_filesFor.1 hf).1
    · have e : ∀ T : Selection, f.allSources.any (fun s => s ∈ T.keys) = true ↔ f ∈ c.filesFor T := by
        intro T; unfold DC.filesFor; rw [List.mem_filter]; simp only [hf, true_and]
      rw [e, mem_filesFor, ← List.map_cons]
      simp only [hf, true_and, mem_unionSelections_keys, List.mem_map]
      constructor
      · rintro ⟨s, ⟨T, hT, hs⟩, hh⟩
        exact ⟨_, ⟨T, hT, rfl⟩, mem_filesFor.2 ⟨hf, s, hs, hh⟩⟩
      · rintro ⟨_, ⟨T, hT, rfl⟩, h⟩
        obtain ⟨-, s, hs, hh⟩ := mem_filesFor.1 h
        exact ⟨s, ⟨T, hT, hs⟩, hh⟩
  refine ⟨_, union_ok_iff.2 ⟨(noConflict_perm hfiles).1 (filesFor_noConflict hc _), rfl⟩, hfiles, ?_, ?_⟩
  · refine eq_of_pairwise_lt hord (sortedSet_pairwise _) (fun t => ?_)
    rw [mem_sortedSet, List.mem_flatMap, ← List.map_cons]
    simp only [List.mem_map]
    constructor
    · intro ht; exact ⟨_, ⟨S, by simp, rfl⟩, ht⟩
    · rintro ⟨_, ⟨T, -, rfl⟩, ht⟩; exact ht
  · have : (c.restrict S :: Ss.map c.restrict).map DC.selection = S :: Ss := by
      rw [← List.map_cons, List.map_map]
      exact List.map_id _
    show SameSelection (unionSelections (S :: Ss)) (unionSelections ((c.restrict S :: Ss.map c.restrict).map DC.selection))
    rw [this]
    exact fun _ => sameChoice_refl _

theorem restrict_same {c : DC V} {S S' : Selection} (h : SameSelection S S') : SameContents (c.restrict S) (c.restrict S') := by
  refine ⟨?_, rfl, h⟩
  show (c.filesFor S).Perm (c.filesFor S')
  have : c.filesFor S = c.filesFor S' := filter_same_choice (fun s _ => h s)
  rw [this]

theorem sameContents_then {a b d : DC V} (h : SameContents a b) (h' : SameContents b d) : SameContents a d :=
  ⟨h.files.trans h'.files, h.trains.trans h'.trains, fun s => sameChoice_trans (h.selection s) (h'.selection s)⟩

/-- Merging merged selections. -/
theorem union_of_unions (Sss : List (List Selection)) :
    SameSelection (unionSelections Sss.flatten) (unionSelections (Sss.map unionSelections)) := by
  intro s
  have hmem : ∀ w, (s, w) ∈ (Sss.map unionSelections).flatten ↔ ∃ Ss ∈ Sss, (unionSelections Ss).get? s = some w := by
    intro w
    rw [List.mem_flatten]
    simp only [List.mem_map]
    constructor
    · rintro ⟨_, ⟨Ss, h1, rfl⟩, h2⟩; exact ⟨Ss, h1, (Dict.get?_eq_some_iff (unionSelections_nodup Ss)).2 h2⟩
    · rintro ⟨Ss, h1, h2⟩; exact ⟨_, ⟨Ss, h1, rfl⟩, (Dict.get?_eq_some_iff (unionSelections_nodup Ss)).1 h2⟩
  have hflat : ∀ w, (s, w) ∈ Sss.flatten.flatten ↔ ∃ Ss ∈ Sss, (s, w) ∈ Ss.flatten := by
    intro w
    simp only [List.mem_flatten]
    constructor
    · rintro ⟨S, ⟨Ss, h1, h2⟩, h3⟩; exact ⟨Ss, h1, S, h2, h3⟩
    · rintro ⟨Ss, h1, S, h2, h3⟩; exact ⟨S, ⟨Ss, h1, h2⟩, h3⟩
  have hnone : (s, none) ∈ Sss.flatten.flatten ↔ (s, none) ∈ (Sss.map unionSelections).flatten := by
    rw [hmem, hflat]
    constructor
    · rintro ⟨Ss, h1, h2⟩; exact ⟨Ss, h1, (unionSelections_get? Ss s none).2 ⟨⟨_, h2⟩, by rw [if_pos h2]⟩⟩
    · rintro ⟨Ss, h1, h2⟩
      obtain ⟨-, h3⟩ := (unionSelections_get? Ss s none).1 h2
      by_cases hx : (s, none) ∈ Ss.flatten
      · exact ⟨Ss, h1, hx⟩
      · rw [if_neg hx] at h3; simp at h3
  have hany : (∃ w, (s, w) ∈ Sss.flatten.flatten) ↔ ∃ w, (s, w) ∈ (Sss.map unionSelections).flatten := by
    simp only [hmem, hflat]
    constructor
    · rintro ⟨w, Ss, h1, h2⟩; exact ⟨_, Ss, h1, (unionSelections_get? Ss s _).2 ⟨⟨w, h2⟩, rfl⟩⟩
    · rintro ⟨w, Ss, h1, h2⟩
      obtain ⟨⟨w', h3⟩, -⟩ := (unionSelections_get? Ss s w).1 h2
      exact ⟨w', Ss, h1, h3⟩
  by_cases ha : ∃ w, (s, w) ∈ Sss.flatten.flatten
  · rw [(unionSelections_get? Sss.flatten s _).2 ⟨ha, rfl⟩, (unionSelections_get? (Sss.map unionSelections) s _).2 ⟨hany.1 ha, rfl⟩]
    by_cases hn : (s, none) ∈ Sss.flatten.flatten
    · rw [if_pos hn, if_pos (hnone.1 hn)]; exact .allKeys
    · rw [if_neg hn, if_neg (fun h => hn (hnone.2 h))]
      refine .keys (fun k => ?_)
      rw [mem_union_keys, mem_union_keys]
      simp only [hmem, hflat]
      constructor
      · rintro ⟨ks, ⟨Ss, h1, h2⟩, hk⟩
        have hx : (s, none) ∉ Ss.flatten := fun h => hn ((hflat none).2 ⟨Ss, h1, h⟩)
        refine ⟨_, ⟨Ss, h1, (unionSelections_get? Ss s _).2 ⟨⟨_, h2⟩, by rw [if_neg hx]⟩⟩, mem_union_keys.2 ⟨ks, h2, hk⟩⟩
      · rintro ⟨ks, ⟨Ss, h1, h2⟩, hk⟩
        have hx : (s, none) ∉ Ss.flatten := fun h => hn ((hflat none).2 ⟨Ss, h1, h⟩)
        obtain ⟨-, h3⟩ := (unionSelections_get? Ss s _).1 h2
        rw [if_neg hx] at h3
        obtain rfl := Option.some.inj h3
        obtain ⟨ks', h4, h5⟩ := mem_union_keys.1 hk
        exact ⟨ks', ⟨Ss, h1, h4⟩, h5⟩
  · have e : ∀ {S : List Selection}, (¬ ∃ w, (s, w) ∈ S.flatten) → (unionSelections S).get? s = none := by
      intro S hS
      cases hg : (unionSelections S).get? s with
      | none => rfl
      | some v => exact absurd ((unionSelections_get? S s v).1 hg).1 hS
    rw [e ha, e (fun h' => ha (hany.2 h'))]
    exact .absent

/-- C135. Joining what several lists of patterns select gives the same as selecting with all the patterns at once. -/
theorem union_pattern_parts {o : List (FileAccess V) → List (FileAccess V)} (ho : IsOrder o) {c p : DC V} {ps : List (DC V)}
    (hn : DifferentNames c) (hc : NoConflict c.files) (hord : c.trainIds.Pairwise (· < ·)) {l : List (Str × Str)}
    {ls : List (List (Str × Str))} (hp : List.Forall₂ (fun l x => c.select (.globs l) = .ok x) (l :: ls) (p :: ps)) :
    ∃ w u, c.select (.globs (l :: ls).flatten) = .ok w ∧ p.union o ps = .ok u ∧ SameContents w u := by
  have key : ∀ {ls : List (List (Str × Str))} {ps : List (DC V)},
      List.Forall₂ (fun l x => c.select (.globs l) = .ok x) ls ps → ∃ Sss : List (List Selection),
        mapE (fun sk : Str × Str => c.selectGlob sk.1 sk.2) ls.flatten = .ok Sss.flatten ∧
        ps = (Sss.map unionSelections).map c.restrict := by
    intro ls ps h
    induction h with
    | nil => exact ⟨[], rfl, rfl⟩
    | @cons l x ls ps hx _ ih =>
      obtain ⟨Sss, h1, rfl⟩ := ih
      obtain ⟨sel, h2, -, rfl⟩ := select_ok_iff.1 hx
      obtain ⟨sels, h3, rfl, -⟩ := expandGlobs_ok h2
      refine ⟨sels :: Sss, ?_, rfl⟩
      rw [List.flatten_cons, List.flatten_cons]
      exact mapE_append.2 ⟨sels, Sss.flatten, h3, h1, rfl⟩
  obtain ⟨Sss, h1, h2⟩ := key hp
  have hw : c.select (.globs (l :: ls).flatten) = .ok (c.restrict (unionSelections Sss.flatten)) :=
    select_ok_iff.2 ⟨_, by unfold DC.expandSelection; simp only [h1], filesFor_noConflict hc _, rfl⟩
  cases Sss with
  | nil => simp at h2
  | cons Ss Sss =>
    obtain ⟨rfl, rfl⟩ := List.cons.inj h2
    obtain ⟨u, h3, h4⟩ := union_restrict ho hn hc hord (unionSelections Ss) (Sss.map unionSelections)
    exact ⟨_, u, hw, h3, sameContents_then (restrict_same (union_of_unions (Ss :: Sss))) h4⟩

theorem available_union_two {c : DC V} {S T : Selection} (hS : S.keys.Nodup) (hT : T.keys.Nodup) {s k : Str}
    (hkey : Available (c.restrict S) s k ∨ Available (c.restrict T) s k → ∃ f, (c.sourceIndex s).head? = some f ∧ FileHasKey f s k) :
    Available (c.restrict (unionSelections [S, T])) s k ↔ Available (c.restrict S) s k ∨ Available (c.restrict T) s k := by
  have hmem : ∀ w, (s, w) ∈ [S, T].flatten ↔ S.get? s = some w ∨ T.get? s = some w := by
    intro w
    rw [Dict.get?_eq_some_iff hS, Dict.get?_eq_some_iff hT]
    simp
  constructor
  · intro h
    obtain ⟨v, hv, hcase⟩ := available_restrict.1 h
    obtain ⟨-, hve⟩ := (unionSelections_get? _ s v).1 hv
    by_cases hnone : (s, none) ∈ [S, T].flatten
    · rw [if_pos hnone] at hve
      subst hve
      rcases hcase with ⟨-, hf⟩ | ⟨ks, h1, -⟩
      · exact ((hmem none).1 hnone).imp (fun hg => available_restrict.2 ⟨_, hg, .inl ⟨rfl, hf⟩⟩)
          (fun hg => available_restrict.2 ⟨_, hg, .inl ⟨rfl, hf⟩⟩)
      · simp at h1
    · rw [if_neg hnone] at hve
      subst hve
      rcases hcase with ⟨h1, -⟩ | ⟨ks, h1, hk, hf⟩
      · simp at h1
      · obtain rfl := Option.some.inj h1
        obtain ⟨ks', h2, h3⟩ := mem_union_keys.1 hk
        exact ((hmem _).1 h2).imp (fun hg => available_restrict.2 ⟨_, hg, .inr ⟨ks', rfl, h3, hf⟩⟩)
          (fun hg => available_restrict.2 ⟨_, hg, .inr ⟨ks', rfl, h3, hf⟩⟩)
  · intro h
    have hf := hkey h
    have hw : ∃ w, (s, w) ∈ [S, T].flatten ∧ ∀ ks, w = some ks → k ∈ ks := by
      have e : ∀ {U : Selection}, Available (c.restrict U) s k → ∃ w, U.get? s = some w ∧ ∀ ks, w = some ks → k ∈ ks := by
        intro U hU
        obtain ⟨v, hv, hcase⟩ := available_restrict.1 hU
        refine ⟨v, hv, fun ks hks => ?_⟩
        rcases hcase with ⟨h1, -⟩ | ⟨ks', h1, h2, -⟩
        · rw [h1] at hks; simp at hks
        · rw [h1] at hks; obtain rfl := Option.some.inj hks; exact h2
      rcases h with h | h
      · obtain ⟨w, h1, h2⟩ := e h; exact ⟨w, (hmem w).2 (.inl h1), h2⟩
      · obtain ⟨w, h1, h2⟩ := e h; exact ⟨w, (hmem w).2 (.inr h1), h2⟩
    obtain ⟨w, hw, hwk⟩ := hw
    refine available_restrict.2 ⟨_, (unionSelections_get? _ s _).2 ⟨⟨w, hw⟩, rfl⟩, ?_⟩
    by_cases hnone : (s, none) ∈ [S, T].flatten
    · exact .inl ⟨if_pos hnone, hf⟩
    · rw [if_neg hnone]
      cases w with
      | none => exact absurd hw hnone
      | some ks =>
        obtain ⟨f, h1, -⟩ := hf
        obtain ⟨h2, h3⟩ := mem_sourceIndex.1 (List.mem_of_mem_head? h1)
        exact .inr ⟨_, rfl, mem_union_keys.2 ⟨ks, hw, hwk ks rfl⟩, f, h2, h3⟩

/-- C135. What `select` takes and what `deselect` leaves make the whole, if the selected keys exist: joined, they have the same
trains, just the sources and keys available before and those taken, and for each of them, in each train, the same data. -/
theorem union_complement {W : Type} {o : List (FileAccess V) → List (FileAccess V)} (ho : IsOrder o) {c a b : DC V} {arg : SelArg}
    (hn : DifferentNames c) (hc : NoConflict c.files) (hk : SameKeys c.files) (hord : c.trainIds.Pairwise (· < ·))
    (hs : c.selection.keys.Nodup) (hx : SelectedKeysExist c) (hxa : SelectedKeysExist a)
    (ha : c.select arg = .ok a) (hb : c.deselect arg = .ok b) :
    ∃ u, a.union o [b] = .ok u ∧ u.trainIds = c.trainIds ∧
      (∀ s k, Available u s k ↔ Available c s k ∨ Available a s k) ∧
      ∀ (instr : Bool) (s k : Str) (roi : V → W) (x : LArr W), FollowsIn c c.trainIds instr s k → c.getArray s k roi = .ok x →
        ∃ y, u.getArray s k roi = .ok y ∧ AllLabelled y ∧ ∀ t, labelled y t = labelled x t := by
  have hcompl := deselect_complement_partial hs hx ha hb
  have hda : Derived c a := .select .same ha
  have hdb : Derived c b := .deselect .same hb
  obtain ⟨S, hS, -, rfl⟩ := select_ok_iff.1 ha
  obtain ⟨D, items, hD, hitems, -, rfl⟩ := deselect_ok_iff.1 hb
  have hTn := deselect_nodup hs hitems
  generalize items.filterMap id = T at hcompl hb hTn hdb
  obtain ⟨u, hu, hsame⟩ := union_restrict ho hn hc hord S [T]
  have hkw : SameKeys (c.restrict (unionSelections [S, T])).files :=
    fun f hf g hg => hk f (mem_filesFor.1 hf).1 g (mem_filesFor.1 hg).1
  have hor : ∀ s k, Available c s k ∨ Available (c.restrict S) s k ↔ Available (c.restrict S) s k ∨ Available (c.restrict T) s k := by
    intro s k
    rw [hcompl]
    tauto
  -- keys which are available exist in the first file
  have hkey : ∀ s k, Available c s k ∨ Available (c.restrict S) s k → ∃ f, (c.sourceIndex s).head? = some f ∧ FileHasKey f s k := by
    intro s k h
    have : ∃ f ∈ c.files, Holds f s ∧ FileHasKey f s k := by
      rcases h with h | h
      · obtain ⟨v, hv, hcase⟩ := available_iff.1 h
        rcases hcase with ⟨-, f, hf, hkey⟩ | ⟨ks, rfl, hk, f, hf, hh⟩
        · obtain ⟨h1, h2⟩ := mem_sourceIndex.1 (List.mem_of_mem_head? hf); exact ⟨f, h1, h2, hkey⟩
        · exact ⟨f, hf, hh, hx s ks hv k hk f hf hh⟩
      · obtain ⟨v, hv, hcase⟩ := available_restrict.1 h
        rcases hcase with ⟨-, f, hf, hkey⟩ | ⟨ks, rfl, hk, f, hf, hh⟩
        · obtain ⟨h1, h2⟩ := mem_sourceIndex.1 (List.mem_of_mem_head? hf); exact ⟨f, h1, h2, hkey⟩
        · exact ⟨f, hf, hh, hxa s ks hv k hk f (mem_filesFor.2 ⟨hf, s, Dict.mem_keys_iff.2 ⟨_, hv⟩, hh⟩) hh⟩
    obtain ⟨f, hf, hh, hfk⟩ := this
    obtain ⟨g, hg⟩ : ∃ g, (c.sourceIndex s).head? = some g := by
      cases hl : c.sourceIndex s with
      | nil => have := mem_sourceIndex.2 ⟨hf, hh⟩; rw [hl] at this; simp at this
      | cons g l => exact ⟨g, rfl⟩
    obtain ⟨hgc, hgs⟩ := mem_sourceIndex.1 (List.mem_of_mem_head? hg)
    exact ⟨g, hg, (hk f hf g hgc s hh hgs k).1 hfk⟩
  have hav : ∀ s k, Available u s k ↔ Available c s k ∨ Available (c.restrict S) s k := by
    intro s k
    rw [← (same_available hsame hkw).2.2 s k, hor]
    exact available_union_two (expandSelection_nodup hS) hTn (fun h => hkey s k ((hor s k).2 h))
  refine ⟨u, hu, hsame.trains.symm, hav, fun instr s k roi x hv hx' => ?_⟩
  have hau := (hav s k).2 (.inl (checkField_ok.1 (getArray_ok hx').1))
  obtain ⟨y, h1, h2, h3, h4⟩ := derived_array_gaps hn hc hv hx' (.union hda (by simpa using hdb) ho hu) (fun f hf hh => by
    rw [← hsame.trains]
    exact (hv f (mem_filesFor.1 (hsame.files.mem_iff.2 hf)).1 hh).2.2.2) hau
  refine ⟨y, h1, h2, fun t => ?_⟩
  have hcov : Covered u s t ↔ Covered c s t := by
    constructor
    · rintro ⟨f, hf, hh⟩
      exact ⟨f, (mem_filesFor.1 (hsame.files.mem_iff.2 hf)).1, hh⟩
    · rintro ⟨f, hf, hh, ht⟩
      refine ⟨f, hsame.files.mem_iff.1 (mem_filesFor.2 ⟨hf, s, ?_, hh⟩), hh, ht⟩
      obtain ⟨v, hv, -⟩ := available_restrict.1 (((same_available hsame hkw).2.2 s k).2 hau)
      exact Dict.mem_keys_iff.2 ⟨_, hv⟩
  by_cases ht : t ∈ c.trainIds ∧ Covered c s t
  · exact h3 t (hsame.trains ▸ ht.1) (hcov.2 ht.2)
  · have hno : t ∉ c.trainIds ∨ ¬ Covered c s t := not_and_or.1 ht
    rw [h4 t (by rw [hcov, ← hsame.trains]; exact hno)]
    refine ((get_array_follows hc hv hx').2.2 t (hno.imp id (fun h f hf hh htf => h ⟨f, hf, hh, htf⟩))).symm

/-! ### Examples -/

/-- Trains 1 and 3, then train 2, joined with the files in opposite order: as all three trains at once. -/
example : ∃ p q w u, exWrite.selectTrains (.idList [1, 3]) = .ok p ∧ exWrite.selectTrains (.idList [2]) = .ok q ∧
    exWrite.selectTrains (.indexSlice none none none) = .ok w ∧ p.union List.reverse [q] = .ok u ∧ SameContents w u := by
  have e1 : ∃ p, exWrite.selectTrains (.idList [1, 3]) = .ok p ∧ p.trainIds = [1, 3] := ⟨_, rfl, rfl⟩
  have e2 : ∃ p, exWrite.selectTrains (.idList [2]) = .ok p ∧ p.trainIds = [2] := ⟨_, rfl, rfl⟩
  have e3 : ∃ p, exWrite.selectTrains (.indexSlice none none none) = .ok p ∧ p.trainIds = [1, 2, 3] := ⟨_, rfl, by decide⟩
  obtain ⟨p, hp, tp⟩ := e1
  obtain ⟨q, hq, tq⟩ := e2
  obtain ⟨w, hw, tw⟩ := e3
  obtain ⟨u, h1, h2⟩ := union_train_parts (ps := [q]) (fun l => List.reverse_perm l) (show (exWrite.files.map FileAccess.filename).Nodup by decide)
    exWrite_regular.conflict (by decide) (by
      intro x hx
      rcases List.mem_cons.1 hx with rfl | hx
      · exact ⟨_, hp⟩
      · obtain rfl := List.mem_singleton.1 hx; exact ⟨_, hq⟩) hw (by rw [tw]; decide)
    (by intro t; simp only [List.mem_cons, List.not_mem_nil, or_false, exists_eq_or_imp, exists_eq_left, tp, tq, tw]; omega)
  exact ⟨p, q, w, u, hp, hq, hw, h1, h2⟩

/-- The two sources selected one by one, and joined. -/
example : ∃ p q w u, exWrite.select (.globs [(ch! "D*", ch! "*")]) = .ok p ∧ exWrite.select (.globs [(ch! "C", ch! "x*")]) = .ok q ∧
    exWrite.select (.globs [(ch! "D*", ch! "*"), (ch! "C", ch! "x*")]) = .ok w ∧ p.union id [q] = .ok u ∧ SameContents w u := by
  have e1 : ∃ p, exWrite.select (.globs [(ch! "D*", ch! "*")]) = .ok p := ⟨_, rfl⟩
  have e2 : ∃ p, exWrite.select (.globs [(ch! "C", ch! "x*")]) = .ok p := ⟨_, rfl⟩
  obtain ⟨p, hp⟩ := e1
  obtain ⟨q, hq⟩ := e2
  obtain ⟨w, u, h1, h2, h3⟩ := union_pattern_parts (fun l => List.Perm.refl l) (show (exWrite.files.map FileAccess.filename).Nodup by decide)
    exWrite_regular.conflict (by decide) (.cons hp (.cons hq .nil))
  exact ⟨p, q, w, u, hp, hq, h1, h2, h3⟩

/-- A source, and all but this source, joined: the data of the other source is there. -/
example : ∃ a b u y, exWrite.select (.globs [(ch! "D*", ch! "*")]) = .ok a ∧ exWrite.deselect (.globs [(ch! "D*", ch! "*")]) = .ok b ∧
    a.union List.reverse [b] = .ok u ∧ u.getArray (ch! "C") (ch! "x.value") id = .ok y ∧ labelled y 2 = [32] := by
  have e1 : ∃ p, exWrite.select (.globs [(ch! "D*", ch! "*")]) = .ok p ∧ p.selection = [(ch! "D:o", none)] := ⟨_, rfl, by decide⟩
  have e2 : ∃ p, exWrite.deselect (.globs [(ch! "D*", ch! "*")]) = .ok p := ⟨_, rfl⟩
  obtain ⟨a, ha, sa⟩ := e1
  obtain ⟨b, hb⟩ := e2
  have hsel : ∀ {d : DC Nat}, (∀ x ∈ d.selection, x.2 = none) → SelectedKeysExist d := by
    intro d hd s ks h
    exact absurd (hd _ (Dict.mem_of_get? h)) (by simp)
  obtain ⟨u, h1, -, -, h4⟩ := union_complement (W := Nat) (fun l => List.reverse_perm l)
    (show (exWrite.files.map FileAccess.filename).Nodup by decide) exWrite_regular.conflict exWrite_regular.keys (by decide) (by decide)
    (hsel (by decide)) (hsel (by rw [sa]; decide)) ha hb
  obtain ⟨y, h5, -, h6⟩ := h4 false (ch! "C") (ch! "x.value") id _ (exWrite_writable.valid _ _ _ ⟨by decide, _, rfl, by decide⟩) rfl
  exact ⟨a, b, u, y, ha, hb, h1, h5, by rw [h6]; decide⟩

end KD

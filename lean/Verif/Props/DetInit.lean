/- Property C58: which trains the detector interface keeps, and when it can be made. -/
import Verif.Props.DetArray
import Verif.Props.Series

set_option linter.unusedSimpArgs false

namespace KD
open Spec

variable {V : Type}

/-- In train `t` of the collection, a file of the source has `n` frames of it. -/
def Spec.FrameCount (c : DC V) (source : Str) (t n : Nat) : Prop :=
  t ∈ c.trainIds ∧ ∃ f ∈ c.files, Holds f source ∧ t ∈ f.trainIds ∧ n = (fileEntries f true source (ch! "image.data") t).length

/-- At least `min` different sources among those given have frames in train `t`. -/
def Spec.EnoughModules (c : DC V) (sources : List Str) (min : Int) (t : Nat) : Prop :=
  ∃ present : List Str, present.Nodup ∧ (∀ s ∈ present, s ∈ sources ∧ ∃ n, 0 < n ∧ FrameCount c s t n) ∧ min ≤ present.length

/-- The files of a source have frames with an index, contiguous or not, which lies inside the data. -/
def Spec.HasImages (c : DC V) (source : Str) : Prop :=
  IndexedIn c true source (ch! "image.data") ∧
    ∀ f ∈ c.files, Holds f source → FileHasKey f source (ch! "image.data") ∧ f.trainIds ≠ []

theorem selectGlob_all {c : DC V} {s : Str} (hs : s ∈ c.allSources) (hp : PlainName s) :
    ∃ sel, c.selectGlob s (ch! "*") = .ok sel := by
  unfold DC.selectGlob
  rw [mapE_ok_of_forall (g := fun s => some (s, none)) (fun a _ => globSource_star)]
  simp only
  have hm : s ∈ c.allSources.filter (globMatch s) := by
    rw [List.mem_filter]
    exact ⟨hs, (globMatch_literal s s hp).2 rfl⟩
  rw [if_neg]
  · exact ⟨_, rfl⟩
  · intro he
    rw [List.isEmpty_iff] at he
    have : (s, none) ∈ ((c.allSources.filter (globMatch s)).map (fun s => some (s, (none : Option (List Str))))).filterMap id := by
      rw [List.mem_filterMap]
      exact ⟨_, List.mem_map.2 ⟨s, hm, rfl⟩, rfl⟩
    rw [he] at this
    simp at this

/-- The counts read for each source. -/
theorem init_counts {c : DC V} {name : Str} {modules : Option (List Nat)} {s2m : Dict Str Nat}
    (hid : identifySources c name modules = .ok s2m) (hc : NoConflict c.files) (hp : ∀ x ∈ s2m, PlainName x.1)
    (hv : ∀ x ∈ s2m, HasImages c x.1) :
    ∃ e sers, c.select (.globs (s2m.map (fun x => (x.1, ch! "*")))) = .ok e ∧
      e.trainIds = c.trainIds ∧ NoConflict e.files ∧
      mapE (fun x : Str × Nat => e.getDataCounts x.1 (ch! "image.data")) s2m = .ok sers ∧
      ∀ x ∈ s2m, ∃ l, e.getDataCounts x.1 (ch! "image.data") = .ok l ∧ ∀ t n, (t, n) ∈ l ↔ FrameCount c x.1 t n := by
  have hall : ∀ x ∈ s2m, x.1 ∈ c.allSources := by
    intro x hx
    have := ((identify_sources c name modules).2.2 s2m hid x.1 x.2).1 hx
    simp only [DC.allSources, List.mem_dedup, List.mem_append]
    exact Or.inr this.1
  obtain ⟨sels, hsels⟩ := mapE_exists_ok (f := fun sk : Str × Str => c.selectGlob sk.1 sk.2)
    (l := s2m.map (fun x => (x.1, ch! "*"))) (by
      intro p hp'
      obtain ⟨x, hx, rfl⟩ := List.mem_map.1 hp'
      exact selectGlob_all (hall x hx) (hp x hx))
  have hexp : c.expandSelection (.globs (s2m.map (fun x => (x.1, ch! "*")))) = .ok (unionSelections sels) := by
    unfold DC.expandSelection
    simp only [hsels]
  obtain ⟨sels', h1, h2, hmem⟩ := expandGlobs_ok hexp
  rw [hsels] at h1
  obtain rfl := Except.ok.inj h1
  have hnc : NoConflict (c.filesFor (unionSelections sels)) := hc.sublist List.filter_sublist
  have hin : ∀ x ∈ s2m, (x.1, none) ∈ sels.flatten := by
    intro x hx
    exact (hmem _ _).2 ⟨(x.1, ch! "*"), List.mem_map.2 ⟨x, hx, rfl⟩, hall x hx, (globMatch_literal x.1 x.1 (hp x hx)).2 rfl,
      globSource_star⟩
  have hget : ∀ x ∈ s2m, (unionSelections sels).get? x.1 = some none := by
    intro x hx
    rw [unionSelections_get?]
    exact ⟨⟨_, hin x hx⟩, by rw [if_pos (hin x hx)]⟩
  have hfile : ∀ x ∈ s2m, ∀ f, Holds f x.1 → (f ∈ c.filesFor (unionSelections sels) ↔ f ∈ c.files) := by
    intro x hx f hh
    rw [mem_filesFor]
    constructor
    · exact fun h => h.1
    · exact fun h => ⟨h, x.1, Dict.mem_keys_iff.2 ⟨_, hget x hx⟩, hh⟩
  have hcounts : ∀ x ∈ s2m, ∃ l, (c.restrict (unionSelections sels)).getDataCounts x.1 (ch! "image.data") = .ok l ∧
      ∀ t n, (t, n) ∈ l ↔ FrameCount c x.1 t n := by
    intro x hx
    have hav : Available (c.restrict (unionSelections sels)) x.1 (ch! "image.data") := by
      rw [available_restrict]
      refine ⟨none, hget x hx, Or.inl ⟨rfl, ?_⟩⟩
      obtain ⟨f, hf, f1, f2⟩ := head?_sourceIndex (mem_allSources.1 (hall x hx)).2
      exact ⟨f, hf, ((hv x hx).2 f f1 f2).1⟩
    obtain ⟨l, h1, -, h3⟩ := get_data_counts_indexed (c := c.restrict (unionSelections sels)) hnc
      (fun f hf hh => (hv x hx).1 f ((hfile x hx f hh).1 hf) hh) (fun f hf hh => ((hv x hx).2 f ((hfile x hx f hh).1 hf) hh).2) hav
    refine ⟨l, h1, fun t n => ?_⟩
    rw [h3]
    unfold FrameCount
    constructor
    · rintro ⟨a, f, b, d, e⟩; exact ⟨a, f, (hfile x hx f d).1 b, d, e⟩
    · rintro ⟨a, f, b, d, e⟩; exact ⟨a, f, (hfile x hx f d).2 b, d, e⟩
  obtain ⟨sers, hsers⟩ := mapE_exists_ok (f := fun x : Str × Nat => (c.restrict (unionSelections sels)).getDataCounts x.1 (ch! "image.data"))
    (l := s2m) (fun x hx => (hcounts x hx).imp (fun _ h => h.1))
  exact ⟨c.restrict (unionSelections sels), sers, select_ok_iff.2 ⟨_, hexp, hnc, rfl⟩, rfl, hnc, hsers, hcounts⟩

/-- The list holds a count above 0 for the train. -/
def presentIn (t : Nat) (ser : List (Nat × Nat)) : Bool := ser.any (fun p => decide (p.1 = t ∧ p.2 > 0))

open Classical in
theorem modulesPresent_eq {c : DC V} {e : DC V} {s2m : Dict Str Nat} {sers : List (List (Nat × Nat))} (t : Nat)
    (hs : mapE (fun x : Str × Nat => e.getDataCounts x.1 (ch! "image.data")) s2m = .ok sers)
    (hl : ∀ x ∈ s2m, ∃ l, e.getDataCounts x.1 (ch! "image.data") = .ok l ∧ ∀ t n, (t, n) ∈ l ↔ FrameCount c x.1 t n) :
    modulesPresent sers t = (s2m.filter (fun x => decide (∃ n, 0 < n ∧ FrameCount c x.1 t n))).length := by
  induction s2m generalizing sers with
  | nil => obtain rfl := Except.ok.inj hs; rfl
  | cons x s2m ih =>
    obtain ⟨l, ls, h1, h2, rfl⟩ := mapE_cons_ok.1 hs
    have ih := ih h2 (fun y hy => hl y (by simp [hy]))
    obtain ⟨l', g1, g2⟩ := hl x (by simp)
    rw [h1] at g1
    obtain rfl := Except.ok.inj g1
    unfold modulesPresent at ih ⊢
    rw [List.countP_cons, ih, List.filter_cons]
    have : (l.any fun p => decide (p.1 = t ∧ p.2 > 0)) = decide (∃ n, 0 < n ∧ FrameCount c x.1 t n) := by
      rw [Bool.eq_iff_iff, List.any_eq_true, decide_eq_true_eq]
      constructor
      · rintro ⟨⟨t', n⟩, hm, hd⟩
        simp only [decide_eq_true_eq] at hd
        obtain ⟨rfl, hn⟩ := hd
        exact ⟨n, hn, (g2 t' n).1 hm⟩
      · rintro ⟨n, hn, hf⟩
        exact ⟨(t, n), (g2 t n).2 hf, by simp [hn]⟩
    rw [this]
    by_cases hx : ∃ n, 0 < n ∧ FrameCount c x.1 t n
    · simp [hx]
    · simp [hx]

theorem filterMap_keys_nodup {name : Str} {modules : Option (List Nat)} {l : List Str} (h : l.Nodup) :
    ((l.filterMap (wantedModule name modules)).map Prod.fst).Nodup := by
  refine h.sublist ?_
  clear h
  induction l with
  | nil => simp
  | cons s l ih =>
    rw [List.filterMap_cons]
    cases hw : wantedModule name modules s with
    | none => exact ih.trans (List.sublist_cons_self _ _)
    | some x =>
      have := ((wantedModule_iff _ _ _ _).1 hw).1
      simp only [List.map_cons]
      rw [this]
      exact ih.cons_cons _

theorem identify_nodup {c : DC V} {name : Str} {modules : Option (List Nat)} {s2m : Dict Str Nat}
    (hid : identifySources c name modules = .ok s2m) : (s2m.map Prod.fst).Nodup := by
  unfold identifySources at hid
  split at hid
  · simp at hid
  · obtain rfl := Except.ok.inj hid
    exact filterMap_keys_nodup (List.nodup_dedup _)

open Classical in
theorem mem_trainsWithModules {c e : DC V} {s2m : Dict Str Nat} {sers : List (List (Nat × Nat))} (min : Int) (t : Nat)
    (hs : mapE (fun x : Str × Nat => e.getDataCounts x.1 (ch! "image.data")) s2m = .ok sers)
    (hl : ∀ x ∈ s2m, ∃ l, e.getDataCounts x.1 (ch! "image.data") = .ok l ∧ ∀ t n, (t, n) ∈ l ↔ FrameCount c x.1 t n)
    (hn : (s2m.map Prod.fst).Nodup) :
    t ∈ trainsWithModules sers min ↔ (∃ s n, s ∈ s2m.map Prod.fst ∧ FrameCount c s t n) ∧ EnoughModules c (s2m.map Prod.fst) min t := by
  unfold trainsWithModules
  rw [List.mem_filter, mem_sortedSet, decide_eq_true_eq, modulesPresent_eq t hs hl]
  refine and_congr ?_ ?_
  · rw [List.mem_map]
    constructor
    · rintro ⟨⟨t', n⟩, hm, rfl⟩
      obtain ⟨l, hl1, hl2⟩ := List.mem_flatten.1 hm
      obtain ⟨x, hx, hxl⟩ := (mapE_mem hs).1 hl1
      obtain ⟨l', g1, g2⟩ := hl x hx
      rw [hxl] at g1
      obtain rfl := Except.ok.inj g1
      exact ⟨x.1, n, List.mem_map.2 ⟨x, hx, rfl⟩, (g2 t' n).1 hl2⟩
    · rintro ⟨s, n, hsm, hf⟩
      obtain ⟨x, hx, rfl⟩ := List.mem_map.1 hsm
      obtain ⟨l, g1, g2⟩ := hl x hx
      obtain ⟨l', hl', hfl'⟩ := mapE_ok_all hs hx
      rw [g1] at hfl'
      obtain rfl := Except.ok.inj hfl'
      exact ⟨(t, n), List.mem_flatten.2 ⟨l, hl', (g2 t n).2 hf⟩, rfl⟩
  · constructor
    · intro h
      refine ⟨(s2m.filter (fun x => decide (∃ n, 0 < n ∧ FrameCount c x.1 t n))).map Prod.fst, ?_, ?_, by simpa using h⟩
      · exact hn.sublist (List.filter_sublist.map _)
      · intro s hs'
        obtain ⟨x, hx, rfl⟩ := List.mem_map.1 hs'
        obtain ⟨h1, h2⟩ := List.mem_filter.1 hx
        exact ⟨List.mem_map.2 ⟨x, h1, rfl⟩, by simpa using h2⟩
    · rintro ⟨present, h1, h2, h3⟩
      refine le_trans h3 ?_
      have : present.length ≤ ((s2m.filter (fun x => decide (∃ n, 0 < n ∧ FrameCount c x.1 t n))).map Prod.fst).length := by
        apply List.Subperm.length_le
        refine List.subperm_of_subset h1 ?_
        intro s hs'
        obtain ⟨h4, h5⟩ := h2 s hs'
        obtain ⟨x, hx, rfl⟩ := List.mem_map.1 h4
        exact List.mem_map.2 ⟨x, List.mem_filter.2 ⟨hx, by simpa using h5⟩, rfl⟩
      rw [List.length_map] at this
      exact_mod_cast this

theorem mem_countValues {c e : DC V} {s2m : Dict Str Nat} {sers : List (List (Nat × Nat))} (n : Nat)
    (hs : mapE (fun x : Str × Nat => e.getDataCounts x.1 (ch! "image.data")) s2m = .ok sers)
    (hl : ∀ x ∈ s2m, ∃ l, e.getDataCounts x.1 (ch! "image.data") = .ok l ∧ ∀ t n, (t, n) ∈ l ↔ FrameCount c x.1 t n) :
    n ∈ countValues sers ↔ 0 < n ∧ ∃ s t, s ∈ s2m.map Prod.fst ∧ FrameCount c s t n := by
  unfold countValues
  rw [List.mem_dedup, List.mem_filter, List.mem_map]
  constructor
  · rintro ⟨⟨⟨t, n'⟩, hm, rfl⟩, hn⟩
    obtain ⟨l, hl1, hl2⟩ := List.mem_flatten.1 hm
    obtain ⟨x, hx, hxl⟩ := (mapE_mem hs).1 hl1
    obtain ⟨l', g1, g2⟩ := hl x hx
    rw [hxl] at g1
    obtain rfl := Except.ok.inj g1
    simp only [bne_iff_ne, ne_eq] at hn
    exact ⟨by omega, x.1, t, List.mem_map.2 ⟨x, hx, rfl⟩, (g2 t n').1 hl2⟩
  · rintro ⟨hn, s, t, hsm, hf⟩
    obtain ⟨x, hx, rfl⟩ := List.mem_map.1 hsm
    obtain ⟨l, g1, g2⟩ := hl x hx
    obtain ⟨l', hl', hfl'⟩ := mapE_ok_all hs hx
    rw [g1] at hfl'
    obtain rfl := Except.ok.inj hfl'
    refine ⟨⟨(t, n), List.mem_flatten.2 ⟨l, hl', (g2 t n).2 hf⟩, rfl⟩, ?_⟩
    simp; omega

/-- C58. The trains kept: those in which at least `min_modules` of the sources have frames. Below 1 all trains are kept
which are in a file of one of the sources. -/
theorem detector_trains {kind : Option Str} {c : DC V} {name : Option Str} {modules : Option (List Nat)} {minModules : Int} {d : Det V}
    (h : Det.init kind c name modules minModules = .ok d) (hc : NoConflict c.files) (hp : PlainSources d)
    (hv : ∀ x ∈ d.sourceToModno, HasImages c x.1) (t : Nat) :
    t ∈ d.data.trainIds ↔ t ∈ c.trainIds ∧ (∃ s n, s ∈ d.sourceToModno.map Prod.fst ∧ FrameCount c s t n) ∧
      EnoughModules c (d.sourceToModno.map Prod.fst) minModules t := by
  obtain ⟨-, -, hid, -, e, sers, he, hsers, -, -, hd⟩ := init_ok h
  obtain ⟨e', sers', g1, g2, g3, g4, g5⟩ := init_counts hid hc hp hv
  rw [he] at g1
  obtain rfl := Except.ok.inj g1
  obtain ⟨new, h3, h4⟩ := (selectTrains_ok_iff g3).1 hd
  have hids := select_trains_by_id_list e.trainIds ((trainsWithModules sers minModules).map Int.ofNat)
  have hex : ∃ t ∈ e.trainIds, (t : Int) ∈ (trainsWithModules sers minModules).map Int.ofNat := by
    by_contra hcon
    have := hids.1.2 (fun t ht hti => hcon ⟨t, ht, hti⟩)
    rw [this] at h3
    simp at h3
  obtain ⟨r, hr, -, hrm⟩ := hids.2 hex
  rw [hr] at h3
  obtain rfl := Except.ok.inj h3
  have : d.data.trainIds = r := by rw [h4]
  rw [this, hrm, g2, ← mem_trainsWithModules minModules t hsers g5 (identify_nodup hid)]
  simp

/-- C58, for `min_modules` at least 1. -/
theorem detector_min_modules {kind : Option Str} {c : DC V} {name : Option Str} {modules : Option (List Nat)} {minModules : Int} {d : Det V}
    (h : Det.init kind c name modules minModules = .ok d) (hc : NoConflict c.files) (hp : PlainSources d)
    (hv : ∀ x ∈ d.sourceToModno, HasImages c x.1) (hmin : 1 ≤ minModules) (t : Nat) :
    t ∈ d.data.trainIds ↔ EnoughModules c (d.sourceToModno.map Prod.fst) minModules t := by
  rw [detector_trains h hc hp hv]
  constructor
  · exact fun h => h.2.2
  · rintro ⟨present, h1, h2, h3⟩
    cases present with
    | nil => simp at h3; omega
    | cons s l =>
      obtain ⟨h4, n, h5, h6⟩ := h2 s (by simp)
      exact ⟨h6.1, ⟨s, n, h4, h6⟩, s :: l, h1, h2, h3⟩

/-- C58. The number of frames per train: all counts which are not 0 equal it, and one does. -/
theorem detector_frames {kind : Option Str} {c : DC V} {name : Option Str} {modules : Option (List Nat)} {minModules : Int} {d : Det V}
    (h : Det.init kind c name modules minModules = .ok d) (hc : NoConflict c.files) (hp : PlainSources d)
    (hv : ∀ x ∈ d.sourceToModno, HasImages c x.1) (n : Nat) :
    n = d.framesPerTrain ↔ 0 < n ∧ ∃ s t, s ∈ d.sourceToModno.map Prod.fst ∧ FrameCount c s t n := by
  obtain ⟨-, -, hid, -, e, sers, he, hsers, hcv, -, hd⟩ := init_ok h
  obtain ⟨e', sers', g1, g2, g3, g4, g5⟩ := init_counts hid hc hp hv
  rw [he] at g1
  obtain rfl := Except.ok.inj g1
  rw [← mem_countValues n hsers g5, hcv, List.mem_singleton]

/-- C58. Making the detector object fails with ValueError exactly when there are no frames at all, when two counts of frames
differ (0 aside), or when in no train enough modules have frames; otherwise with AssertionError exactly when two sources have
the same module number; there is no other failure. `s2m` are the sources found (`identify_sources`). -/
theorem detector_fails {kind : Option Str} {c : DC V} {name : Str} {modules : Option (List Nat)} {minModules : Int}
    {s2m : Dict Str Nat} (hid : identifySources c name modules = .ok s2m) (hc : NoConflict c.files)
    (hp : ∀ x ∈ s2m, PlainName x.1) (hv : ∀ x ∈ s2m, HasImages c x.1) :
    (Det.init kind c (some name) modules minModules = .error .value ↔
      (¬ ∃ s t n, s ∈ s2m.map Prod.fst ∧ FrameCount c s t n ∧ 0 < n) ∨
      (∃ s t n s' t' n', s ∈ s2m.map Prod.fst ∧ FrameCount c s t n ∧ s' ∈ s2m.map Prod.fst ∧ FrameCount c s' t' n' ∧
        0 < n ∧ 0 < n' ∧ n ≠ n') ∨
      ¬ ∃ t s n, s ∈ s2m.map Prod.fst ∧ FrameCount c s t n ∧ EnoughModules c (s2m.map Prod.fst) minModules t) ∧
    (∀ e, Det.init kind c (some name) modules minModules = .error e → e = .value ∨ e = .assertion) ∧
    (Det.init kind c (some name) modules minModules = .error .assertion → ∃ s s' n, s ≠ s' ∧ (s, n) ∈ s2m ∧ (s', n) ∈ s2m) := by
  obtain ⟨e, sers, g1, g2, g3, g4, g5⟩ := init_counts hid hc hp hv
  have hcv := fun n => mem_countValues n g4 g5
  have htw := fun t => mem_trainsWithModules minModules t g4 g5 (identify_nodup hid)
  have hnd : (countValues sers).Nodup := List.nodup_dedup _
  have hkn := identify_nodup hid
  unfold Det.init
  simp only [hid, g1, g4]
  rcases hcs : countValues sers with _ | ⟨a, _ | ⟨b, l⟩⟩
  · -- no frames
    refine ⟨⟨fun _ => Or.inl ?_, fun _ => rfl⟩, fun e he => Or.inl (Except.error.inj he).symm, fun he => by simp at he⟩
    rintro ⟨s, t, n, h1, h2, h3⟩
    have := (hcv n).2 ⟨h3, s, t, h1, h2⟩
    rw [hcs] at this
    simp at this
  · have hone : ∃ s t n, s ∈ s2m.map Prod.fst ∧ FrameCount c s t n ∧ 0 < n := by
      obtain ⟨h1, s, t, h2, h3⟩ := (hcv a).1 (by rw [hcs]; simp)
      exact ⟨s, t, a, h2, h3, h1⟩
    have heq : ¬ ∃ s t n s' t' n', s ∈ s2m.map Prod.fst ∧ FrameCount c s t n ∧ s' ∈ s2m.map Prod.fst ∧ FrameCount c s' t' n' ∧
        0 < n ∧ 0 < n' ∧ n ≠ n' := by
      rintro ⟨s, t, n, s', t', n', h1, h2, h3, h4, h5, h6, h7⟩
      have e1 := (hcv n).2 ⟨h5, s, t, h1, h2⟩
      have e2 := (hcv n').2 ⟨h6, s', t', h3, h4⟩
      rw [hcs, List.mem_singleton] at e1 e2
      omega
    simp only
    by_cases ht : trainsWithModules sers minModules = []
    · rw [if_pos ht]
      refine ⟨⟨fun _ => Or.inr (Or.inr ?_), fun _ => rfl⟩, fun e he => Or.inl (Except.error.inj he).symm, fun he => by simp at he⟩
      rintro ⟨t, s, n, h1, h2, h3⟩
      have := (htw t).2 ⟨⟨s, n, h1, h2⟩, h3⟩
      rw [ht] at this
      simp at this
    · rw [if_neg ht]
      have hsome : ∃ t s n, s ∈ s2m.map Prod.fst ∧ FrameCount c s t n ∧ EnoughModules c (s2m.map Prod.fst) minModules t := by
        obtain ⟨t, hts⟩ := List.exists_mem_of_ne_nil _ ht
        obtain ⟨⟨s, n, h1, h2⟩, h3⟩ := (htw t).1 hts
        exact ⟨t, s, n, h1, h2, h3⟩
      have hnot : ¬ ((¬ ∃ s t n, s ∈ s2m.map Prod.fst ∧ FrameCount c s t n ∧ 0 < n) ∨
          (∃ s t n s' t' n', s ∈ s2m.map Prod.fst ∧ FrameCount c s t n ∧ s' ∈ s2m.map Prod.fst ∧ FrameCount c s' t' n' ∧
          0 < n ∧ 0 < n' ∧ n ≠ n') ∨
          ¬ ∃ t s n, s ∈ s2m.map Prod.fst ∧ FrameCount c s t n ∧ EnoughModules c (s2m.map Prod.fst) minModules t) := by
        rintro (h | h | h)
        · exact h hone
        · exact heq h
        · exact h hsome
      have hst : ∃ d', e.selectTrains (.idList ((trainsWithModules sers minModules).map Int.ofNat)) = .ok d' := by
        have hids := select_trains_by_id_list e.trainIds ((trainsWithModules sers minModules).map Int.ofNat)
        obtain ⟨t, hts⟩ := List.exists_mem_of_ne_nil _ ht
        obtain ⟨⟨s, n, h1, h2⟩, h3⟩ := (htw t).1 hts
        obtain ⟨r, hr, -, -⟩ := hids.2 ⟨t, by rw [g2]; exact h2.1, List.mem_map.2 ⟨t, hts, rfl⟩⟩
        exact ⟨_, (selectTrains_ok_iff g3).2 ⟨r, hr, rfl⟩⟩
      obtain ⟨d', hd'⟩ := hst
      simp only [hd']
      by_cases hinv : (invertDict s2m).length = s2m.length
      · rw [if_neg (not_not.2 hinv)]
        exact ⟨⟨fun h => by simp at h, fun h => absurd h hnot⟩, fun e he => by simp at he, fun he => by simp at he⟩
      · rw [if_pos hinv]
        refine ⟨⟨fun h => by simp at h, fun h => absurd h hnot⟩, fun e he => Or.inr (Except.error.inj he).symm, fun _ => ?_⟩
        rw [invertDict_length_iff] at hinv
        by_contra hcon
        apply hinv
        refine List.Nodup.map_on ?_ (List.Nodup.of_map _ hkn)
        rintro ⟨s, n⟩ h1 ⟨s', n'⟩ h2 hnn
        simp only at hnn
        subst hnn
        by_contra hne
        exact hcon ⟨s, s', n, fun h => hne (by rw [h]), h1, h2⟩
  · have hab : a ≠ b := by
      rw [hcs] at hnd
      simp at hnd
      exact hnd.1.1
    obtain ⟨h1, s, t, h2, h3⟩ := (hcv a).1 (by rw [hcs]; simp)
    obtain ⟨h1', s', t', h2', h3'⟩ := (hcv b).1 (by rw [hcs]; simp)
    refine ⟨⟨fun _ => Or.inr (Or.inl ⟨s, t, a, s', t', b, h2, h3, h2', h3', h1, h1', hab⟩), fun _ => rfl⟩,
      fun e he => Or.inl (Except.error.inj he).symm, fun he => by simp at he⟩

/-- The example of Props/DetArray.lean meets the hypotheses of the theorems above. -/
theorem exDet_hasImages : NoConflict exDetData.files ∧ ∀ x ∈ exDet.sourceToModno, HasImages exDetData x.1 := by
  refine ⟨?_, ?_⟩
  · rw [← hasConflicts_false]
    decide
  · intro x hx
    refine ⟨fun f hf hh => ((exDet_valid.2.1 x hx).1 f hf hh).indexed, ?_⟩
    intro f hf hh
    simp only [exDetData, List.mem_cons, List.not_mem_nil, or_false] at hf
    simp only [exDet, List.mem_cons, List.not_mem_nil, or_false] at hx
    rcases hf with rfl | rfl <;> rcases hx with rfl | rfl
    · exact ⟨⟨_, rfl, by decide⟩, by decide⟩
    · exfalso; revert hh; rintro (h | h) <;> revert h <;> decide
    · exfalso; revert hh; rintro (h | h) <;> revert h <;> decide
    · exact ⟨⟨_, rfl, by decide⟩, by decide⟩

set_option maxRecDepth 20000 in
-- module 3 has no frames in train 12: asking for two modules drops it; no train has three
example : ((Det.init (some (ch! "_AGIPD1M")) exDetData none none 2).map (fun d => d.data.trainIds) = .ok [10, 11]) ∧
    (Det.init (some (ch! "_AGIPD1M")) exDetData none none 3).map (fun d => d.data.trainIds) = .error .value := by decide

end KD

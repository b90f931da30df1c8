/- Properties C55, C56 and C60: the frames in detector arrays. -/
import Verif.Props.DetSources
import Verif.Props.Trains

set_option linter.unusedSimpArgs false

namespace KD
open Spec

variable {V : Type}

/-- A name without characters special in patterns. -/
def Spec.PlainName (s : Str) : Prop := ∀ x ∈ s, x ≠ '*' ∧ x ≠ '?' ∧ x ≠ '['

/-- The detector object has the sources `s`, all with plain names. -/
def Spec.PlainSources (d : Det V) : Prop := ∀ x ∈ d.sourceToModno, PlainName x.1

/-- The data kept by the detector object: files of the collection, among them all which have one of its sources and one
of the trains kept. -/
theorem init_data {kind : Option Str} {c : DC V} {name : Option Str} {modules : Option (List Nat)} {minModules : Int} {d : Det V}
    (h : Det.init kind c name modules minModules = .ok d) (hp : PlainSources d) :
    NoConflict d.data.files ∧ d.data.trainIds.Pairwise (· < ·) ∧ d.data.trainIds ≠ [] ∧
    (∀ t ∈ d.data.trainIds, t ∈ c.trainIds) ∧ (∀ f ∈ d.data.files, f ∈ c.files) ∧
    ∀ f ∈ c.files, ∀ x ∈ d.sourceToModno, Holds f x.1 → (∃ t ∈ d.data.trainIds, t ∈ f.trainIds) → f ∈ d.data.files := by
  obtain ⟨-, -, hs, -, e, sers, he, -, -, -, hd⟩ := init_ok h
  obtain ⟨sel, h1, h2, rfl⟩ := select_ok_iff.1 he
  obtain ⟨sels, -, rfl, hmem⟩ := expandGlobs_ok h1
  obtain ⟨new, h3, h4⟩ := (selectTrains_ok_iff h2).1 hd
  have hids := select_trains_by_id_list (c.restrict (unionSelections sels)).trainIds
    ((trainsWithModules sers minModules).map Int.ofNat)
  have hex : ∃ t ∈ (c.restrict (unionSelections sels)).trainIds, (t : Int) ∈ (trainsWithModules sers minModules).map Int.ofNat := by
    by_contra hc
    have := hids.1.2 (fun t ht hti => hc ⟨t, ht, hti⟩)
    rw [this] at h3
    simp at h3
  obtain ⟨r, hr, hsort, hrm⟩ := hids.2 hex
  rw [hr] at h3
  obtain rfl := Except.ok.inj h3
  have hfiles : ∀ f, f ∈ d.data.files ↔ f ∈ c.filesFor (unionSelections sels) ∧ ∃ t ∈ f.trainIds, t ∈ r := by
    intro f
    rw [h4]
    simp only [List.mem_filter, List.any_eq_true, decide_eq_true_eq]
    rfl
  have htr : d.data.trainIds = r := by rw [h4]
  refine ⟨?_, by rw [htr]; exact hsort, ?_, ?_, ?_, ?_⟩
  · rw [h4]
    exact List.Pairwise.sublist List.filter_sublist h2
  · rw [htr]
    obtain ⟨t, ht, hti⟩ := hex
    intro hc
    have := (hrm t).2 ⟨ht, hti⟩
    rw [hc] at this
    simp at this
  · intro t ht
    rw [htr] at ht
    exact ((hrm t).1 ht).1
  · intro f hf
    have := ((hfiles f).1 hf).1
    exact (List.mem_filter.1 this).1
  · intro f hf x hx hh ⟨t, ht, htf⟩
    rw [hfiles]
    rw [htr] at ht
    refine ⟨?_, t, htf, ht⟩
    refine List.mem_filter.2 ⟨hf, ?_⟩
    rw [List.any_eq_true]
    have hx' := ((identify_sources c d.name modules).2.2 _ hs x.1 x.2).1 hx
    refine ⟨x.1, ?_, ?_⟩
    · simp only [FileAccess.allSources, List.mem_append, List.mem_dedup]
      exact hh
    · rw [decide_eq_true_eq, unionSelections_keys, List.mem_dedup, List.mem_map]
      have hall : x.1 ∈ c.allSources := by
        simp only [DC.allSources, List.mem_dedup, List.mem_append]
        exact Or.inr hx'.1
      refine ⟨(x.1, none), (hmem x.1 none).2 ⟨(x.1, ch! "*"), List.mem_map.2 ⟨x, hx, rfl⟩, hall, ?_, globSource_star⟩, rfl⟩
      exact (globMatch_literal x.1 x.1 (hp x hx)).2 rfl

theorem init_sources_ne {kind : Option Str} {c : DC V} {name : Option Str} {modules : Option (List Nat)} {minModules : Int}
    {d : Det V} (h : Det.init kind c name modules minModules = .ok d) : d.sourceToModno ≠ [] := by
  obtain ⟨-, -, -, -, e, sers, -, h1, h2, -⟩ := init_ok h
  intro hn
  rw [hn] at h1
  obtain rfl := Except.ok.inj h1
  simp [countValues] at h2

/-- The frames of the trains kept are the same in the whole collection and in the data kept. -/
theorem frameOf_data {kind : Option Str} {c : DC V} {name : Option Str} {modules : Option (List Nat)} {minModules : Int} {d : Det V}
    (h : Det.init kind c name modules minModules = .ok d) (hp : PlainSources d) {x : Str × Nat} (hx : x ∈ d.sourceToModno)
    {num : V → Nat} {key : Str} {t k p : Nat} {v : V} (ht : t ∈ d.data.trainIds) :
    FrameOf num d.data x.1 key t k p v ↔ FrameOf num c x.1 key t k p v := by
  obtain ⟨-, -, -, -, h1, h2⟩ := init_data h hp
  constructor
  · rintro ⟨f, hf, hh, hfr⟩; exact ⟨f, h1 f hf, hh, hfr⟩
  · rintro ⟨f, hf, hh, hfr⟩; exact ⟨f, h2 f hf x hx hh ⟨t, ht, frameIn_mem hfr⟩, hh, hfr⟩

theorem concatModules_ok {l : List (Nat × PArr V)} {a : DetArr V} (h : concatModules l = .ok a) :
    a.modules = l.map Prod.fst ∧ a.cells = l.map (fun x => (x.1, x.2.cells)) ∧
    a.trains = joinLabels (l.map (fun x => x.2.trains)) ∧ a.pulses = joinLabels (l.map (fun x => x.2.pulses)) ∧
    ((∀ x ∈ l, x.2.rowShape <:+ a.rowShape) ∧ ∃ x ∈ l, a.rowShape = x.2.rowShape) ∧ l ≠ [] := by
  unfold concatModules at h
  split at h
  · simp at h
  · rename_i hne
    have hne : l ≠ [] := by rintro rfl; exact hne rfl
    split at h
    · simp at h
    · rename_i shape hs
      obtain rfl := Except.ok.inj h
      obtain ⟨h1, h2⟩ := joinImageSizes_ok hs
      refine ⟨rfl, rfl, rfl, rfl, ⟨?_, ?_⟩, hne⟩
      · intro x hx
        exact h1 _ (List.mem_map.2 ⟨x, hx, rfl⟩)
      · obtain ⟨x, hx, e⟩ := List.mem_map.1 (h2 (by simpa using hne))
        exact ⟨x, hx, e.symm⟩

theorem getArray_pulses {d : Det V} {libs : Libs} {num : V → Nat} {key : Str} {arg : PulseArg} {a : DetArr V}
    (h : d.getArray libs num key arg = .ok (.pulses a)) : startsWith key (ch! "image.") = true ∧
    ∃ ps l, checkPulses libs arg = .ok ps ∧ mapE (d.modulePart num key ps) d.modules = .ok l ∧ concatModules l = .ok a := by
  unfold Det.getArray at h
  split at h
  · simp at h
  · rename_i ps hps
    split at h
    · rename_i hk
      split at h
      · simp at h
      · rename_i l hl
        split at h
        · simp at h
        · rename_i a' ha
          have := DetResult.pulses.inj (Except.ok.inj h)
          subst this
          exact ⟨hk, ps, l, hps, hl, ha⟩
    · split at h
      · simp at h
      · split at h <;> simp at h

theorem modulePart_ok {d : Det V} {num : V → Nat} {key : Str} {ps : Pulses} {x : Nat × Str} {y : Nat × PArr V}
    (h : d.modulePart num key ps x = .ok y) : y.1 = x.1 ∧ d.moduleData num x.2 key ps = .ok y.2 := by
  unfold Det.modulePart at h
  split at h
  · simp at h
  · rename_i a ha
    obtain rfl := Except.ok.inj h
    exact ⟨rfl, ha⟩

theorem framesValid_data {kind : Option Str} {c : DC V} {name : Option Str} {modules : Option (List Nat)} {minModules : Int}
    {d : Det V} (h : Det.init kind c name modules minModules = .ok d) (hp : PlainSources d) {source key : Str}
    (hv : FramesValid c source key) : FramesValid d.data source key := by
  obtain ⟨-, -, -, -, h1, -⟩ := init_data h hp
  exact ⟨fun f hf hh => hv.1 f (h1 f hf) hh, fun f hf hh => hv.2 f (h1 f hf) hh⟩

theorem framesIndexed_data {kind : Option Str} {c : DC V} {name : Option Str} {modules : Option (List Nat)} {minModules : Int}
    {d : Det V} (h : Det.init kind c name modules minModules = .ok d) (hp : PlainSources d) {source key : Str}
    (hv : FramesIndexed c source key) : FramesIndexed d.data source key := by
  obtain ⟨-, -, -, -, h1, -⟩ := init_data h hp
  exact ⟨fun f hf hh => hv.1 f (h1 f hf) hh, fun f hf hh => hv.2 f (h1 f hf) hh⟩

theorem framesIndexed_of_valid {c : DC V} {source key : Str} (hv : FramesValid c source key) : FramesIndexed c source key :=
  ⟨fun f hf hh => (hv.1 f hf hh).indexed, fun f hf hh => (hv.2 f hf hh).indexed⟩

theorem modules_fst {d : Det V} {num : V → Nat} {key : Str} {ps : Pulses} : ∀ {ms : List (Nat × Str)} {l : List (Nat × PArr V)},
    mapE (d.modulePart num key ps) ms = .ok l → l.map Prod.fst = ms.map Prod.fst := by
  intro ms
  induction ms with
  | nil => intro l h; obtain rfl := Except.ok.inj h; rfl
  | cons x ms ih =>
    intro l h
    obtain ⟨y, ys, h1, h2, rfl⟩ := mapE_cons_ok.1 h
    simp only [List.map_cons, ih h2, (modulePart_ok h1).1]

theorem cells_get {l : List (Nat × PArr V)} (hn : (l.map Prod.fst).Nodup) {m : Nat} {b : PArr V} (hm : (m, b) ∈ l) :
    Dict.get? (l.map (fun x => (x.1, x.2.cells)) : Dict Nat (Dict (Nat × Nat) V)) m = some b.cells := by
  rw [Dict.get?_eq_some_iff]
  · exact List.mem_map.2 ⟨(m, b), hm, rfl⟩
  · simpa [Dict.keys, Function.comp_def] using hn

/-- The arrays of the modules are what they should be. -/
def ModulesRight (num : V → Nat) (d : Det V) (key : Str) : Prop :=
  ∀ x ∈ d.sourceToModno, ∀ ps b, d.moduleData num x.1 key ps = .ok b → ModuleSpec num d.data x.1 key ps b

theorem modulesRight_of_valid {kind : Option Str} {c : DC V} {name : Option Str} {modules : Option (List Nat)} {minModules : Int}
    {d : Det V} {num : V → Nat} {key : Str} (hd : Det.init kind c name modules minModules = .ok d)
    (hp : PlainSources d) (hv : ∀ x ∈ d.sourceToModno, FramesValid c x.1 key) : ModulesRight num d key := by
  intro x hx ps b hb
  obtain ⟨hn, hsort, -⟩ := init_data hd hp
  exact moduleData_spec hb hn (framesValid_data hd hp (hv _ hx)) (hsort.imp (fun h => by omega))

/-- What `get_array` has for each module. -/
theorem getArray_modules {kind : Option Str} {c : DC V} {name : Option Str} {modules : Option (List Nat)} {minModules : Int}
    {d : Det V} {libs : Libs} {num : V → Nat} {key : Str} {arg : PulseArg} {a : DetArr V}
    (hd : Det.init kind c name modules minModules = .ok d) (h : d.getArray libs num key arg = .ok (.pulses a))
    (hv : ModulesRight num d key) :
    ∃ ps l, checkPulses libs arg = .ok ps ∧ concatModules l = .ok a ∧ (l.map Prod.fst).Pairwise (· < ·) ∧
      (∀ m, m ∈ l.map Prod.fst ↔ ∃ source, (source, m) ∈ d.sourceToModno) ∧
      ∀ m b, (m, b) ∈ l → ∃ source, (source, m) ∈ d.sourceToModno ∧ ModuleSpec num d.data source key ps b := by
  obtain ⟨hk, ps, l, hps, hl, ha⟩ := getArray_pulses h
  obtain ⟨hm, hord⟩ := detector_modules hd
  refine ⟨ps, l, hps, ha, by rw [modules_fst hl]; exact hord, ?_, ?_⟩
  · intro m
    rw [modules_fst hl, List.mem_map]
    constructor
    · rintro ⟨⟨m', s⟩, h1, rfl⟩; exact ⟨s, (hm s m').1 h1⟩
    · rintro ⟨s, h1⟩; exact ⟨(m, s), (hm s m).2 h1, rfl⟩
  · intro m b hb
    obtain ⟨⟨m', s⟩, hx, hy⟩ := (mapE_mem hl).1 hb
    obtain ⟨h1, h2⟩ := modulePart_ok hy
    simp only at h1 h2
    subst h1
    have hin := (hm s m).1 hx
    exact ⟨s, hin, hv _ hin ps b h2⟩

theorem get_array_exact_of {kind : Option Str} {c : DC V} {name : Option Str} {modules : Option (List Nat)} {minModules : Int}
    {d : Det V} {libs : Libs} {num : V → Nat} {key : Str} {arg : PulseArg} {a : DetArr V}
    (hd : Det.init kind c name modules minModules = .ok d) (h : d.getArray libs num key arg = .ok (.pulses a))
    (hp : PlainSources d) (hv : ModulesRight num d key)
    (hmax : ∀ x ∈ d.sourceToModno, PulsesBelowMax num c x.1 key)
    {source : Str} {m : Nat} (hm : (source, m) ∈ d.sourceToModno) (t p : Nat) (v : V) :
    a.cell m t p = some v ↔ t ∈ d.data.trainIds ∧ ∃ k, FrameOf num c source key t k p v ∧ Asked arg k p := by
  obtain ⟨ps, l, hps, ha, hord, hms, hspec⟩ := getArray_modules hd h hv
  obtain ⟨e1, e2, e3, e4, e5, e6⟩ := concatModules_ok ha
  have hnd : (l.map Prod.fst).Nodup := hord.imp (fun h => by omega)
  obtain ⟨⟨m', b⟩, hb, rfl⟩ := List.mem_map.1 ((hms m).2 ⟨source, hm⟩)
  obtain ⟨source', hs', spec⟩ := hspec m' b hb
  have hss : source' = source := by
    have := List.inj_on_of_nodup_map (init_ok hd).2.2.2.1 hs' hm rfl
    exact (Prod.mk.inj this).1
  subst hss
  unfold DetArr.cell
  rw [e2, cells_get hnd hb]
  simp only
  rw [spec.cells]
  constructor
  · rintro ⟨ht, k, hfr, hak⟩
    have hfr := (frameOf_data hd hp hs' ht).1 hfr
    obtain ⟨b1, b2⟩ := hmax _ hs' t k p v hfr
    exact ⟨ht, k, hfr, (checkPulses_asked hps b1 b2).1 hak⟩
  · rintro ⟨ht, k, hfr, hak⟩
    obtain ⟨b1, b2⟩ := hmax _ hs' t k p v hfr
    exact ⟨ht, k, (frameOf_data hd hp hs' ht).2 hfr, (checkPulses_asked hps b1 b2).2 hak⟩

theorem get_array_labels_of {kind : Option Str} {c : DC V} {name : Option Str} {modules : Option (List Nat)} {minModules : Int}
    {d : Det V} {libs : Libs} {num : V → Nat} {key : Str} {arg : PulseArg} {a : DetArr V}
    (hd : Det.init kind c name modules minModules = .ok d) (h : d.getArray libs num key arg = .ok (.pulses a))
    (hv : ModulesRight num d key) :
    (∀ m, m ∈ a.modules ↔ ∃ source, (source, m) ∈ d.sourceToModno) ∧
    (∀ t, t ∈ a.trains ↔ ∃ m p v, a.cell m t p = some v) ∧
    (∀ p, p ∈ a.pulses ↔ ∃ m t v, a.cell m t p = some v) ∧
    a.modules.Pairwise (· < ·) ∧ a.trains.Pairwise (· < ·) ∧ a.pulses.Pairwise (· < ·) := by
  obtain ⟨ps, l, hps, ha, hord, hms, hspec⟩ := getArray_modules hd h hv
  obtain ⟨e1, e2, e3, e4, e5, e6⟩ := concatModules_ok ha
  have hnd : (l.map Prod.fst).Nodup := hord.imp (fun h => by omega)
  have hcell : ∀ m t p v, a.cell m t p = some v ↔ ∃ b, (m, b) ∈ l ∧ Dict.get? b.cells (t, p) = some v := by
    intro m t p v
    unfold DetArr.cell
    rw [e2]
    constructor
    · intro hc
      split at hc
      · simp at hc
      · rename_i dd hdd
        have := Dict.mem_of_get? hdd
        rw [List.mem_map] at this
        obtain ⟨⟨m', b⟩, hb, heq⟩ := this
        obtain ⟨rfl, rfl⟩ := Prod.mk.inj heq
        exact ⟨b, hb, hc⟩
    · rintro ⟨b, hb, hg⟩
      rw [cells_get hnd hb]
      exact hg
  refine ⟨by intro m; rw [e1]; exact hms m, ?_, ?_, by rw [e1]; exact hord, ?_, ?_⟩
  · intro t
    rw [e3, mem_joinLabels]
    constructor
    · rintro ⟨_, hl, ht⟩
      obtain ⟨⟨m, b⟩, hb, rfl⟩ := List.mem_map.1 hl
      obtain ⟨_, _, spec⟩ := hspec m b hb
      obtain ⟨p, v, hg⟩ := (spec.trains t).1 ht
      exact ⟨m, p, v, (hcell m t p v).2 ⟨b, hb, hg⟩⟩
    · rintro ⟨m, p, v, hc⟩
      obtain ⟨b, hb, hg⟩ := (hcell m t p v).1 hc
      obtain ⟨_, _, spec⟩ := hspec m b hb
      exact ⟨_, List.mem_map.2 ⟨_, hb, rfl⟩, (spec.trains t).2 ⟨p, v, hg⟩⟩
  · intro p
    rw [e4, mem_joinLabels]
    constructor
    · rintro ⟨_, hl, ht⟩
      obtain ⟨⟨m, b⟩, hb, rfl⟩ := List.mem_map.1 hl
      obtain ⟨_, _, spec⟩ := hspec m b hb
      obtain ⟨t, v, hg⟩ := (spec.pulses p).1 ht
      exact ⟨m, t, v, (hcell m t p v).2 ⟨b, hb, hg⟩⟩
    · rintro ⟨m, t, v, hc⟩
      obtain ⟨b, hb, hg⟩ := (hcell m t p v).1 hc
      obtain ⟨_, _, spec⟩ := hspec m b hb
      exact ⟨_, List.mem_map.2 ⟨_, hb, rfl⟩, (spec.pulses p).2 ⟨t, v, hg⟩⟩
  · rw [e3]
    refine joinLabels_pairwise (fun x hx => ?_)
    obtain ⟨⟨m, b⟩, hb, rfl⟩ := List.mem_map.1 hx
    obtain ⟨_, _, spec⟩ := hspec m b hb
    exact spec.trainsOrder
  · rw [e4]
    refine joinLabels_pairwise (fun x hx => ?_)
    obtain ⟨⟨m, b⟩, hb, rfl⟩ := List.mem_map.1 hx
    obtain ⟨_, _, spec⟩ := hspec m b hb
    exact spec.pulsesOrder

/-- C55, C56, C60. In an array of detector data, module `m` has for train `t` and pulse ID `p` the entry `v` exactly when
the train is among those kept and, in the files, `v` is a frame of this source in this train, with this pulse ID, and asked
for: by its number in the train with `by_index`, by its pulse ID with `by_id`. The files must have valid indexes. Missing:
for other files see `get_array_index_wrong`. -/
theorem get_array_exact_partial {kind : Option Str} {c : DC V} {name : Option Str} {modules : Option (List Nat)} {minModules : Int}
    {d : Det V} {libs : Libs} {num : V → Nat} {key : Str} {arg : PulseArg} {a : DetArr V}
    (hd : Det.init kind c name modules minModules = .ok d) (h : d.getArray libs num key arg = .ok (.pulses a))
    (hp : PlainSources d) (hv : ∀ x ∈ d.sourceToModno, FramesValid c x.1 key)
    (hmax : ∀ x ∈ d.sourceToModno, PulsesBelowMax num c x.1 key)
    {source : Str} {m : Nat} (hm : (source, m) ∈ d.sourceToModno) (t p : Nat) (v : V) :
    a.cell m t p = some v ↔ t ∈ d.data.trainIds ∧ ∃ k, FrameOf num c source key t k p v ∧ Asked arg k p :=
  get_array_exact_of hd h hp (modulesRight_of_valid hd hp hv) hmax hm t p v

/-- C60. The labels of the array, all increasing: the modules of the detector, and those trains and pulse IDs for which
there is an entry. -/
theorem get_array_labels {kind : Option Str} {c : DC V} {name : Option Str} {modules : Option (List Nat)} {minModules : Int}
    {d : Det V} {libs : Libs} {num : V → Nat} {key : Str} {arg : PulseArg} {a : DetArr V}
    (hd : Det.init kind c name modules minModules = .ok d) (h : d.getArray libs num key arg = .ok (.pulses a))
    (hp : PlainSources d) (hv : ∀ x ∈ d.sourceToModno, FramesValid c x.1 key) :
    (∀ m, m ∈ a.modules ↔ ∃ source, (source, m) ∈ d.sourceToModno) ∧
    (∀ t, t ∈ a.trains ↔ ∃ m p v, a.cell m t p = some v) ∧
    (∀ p, p ∈ a.pulses ↔ ∃ m t v, a.cell m t p = some v) ∧
    a.modules.Pairwise (· < ·) ∧ a.trains.Pairwise (· < ·) ∧ a.pulses.Pairwise (· < ·) :=
  get_array_labels_of hd h (modulesRight_of_valid hd hp hv)

end KD

namespace KD
open Spec

/-- A file of module `n` of a detector, with frames and pulse IDs. -/
def exModule (n : Char) (tids firsts counts ids rows : List Nat) : FileAccess Nat :=
  let source := ch! "X_AGIPD1M-1/DET/" ++ [n] ++ ch! "CH0:xtdf"
  ⟨[n], tids, [], [source],
    { trainId := some tids, version := some (ch! "1.0"), sources05 := none,
      sources10 := some [ch! "INSTRUMENT/" ++ source ++ ch! "/image"],
      index := [([ch! "INDEX", ch! "X_AGIPD1M-1", ch! "DET", [n] ++ ch! "CH0:xtdf", ch! "image"],
        ⟨some (firsts.map (BitVec.ofNat 64)), some (counts.map (BitVec.ofNat 64)), none, none⟩)],
      groups := [],
      datasets := [([ch! "INSTRUMENT", ch! "X_AGIPD1M-1", ch! "DET", [n] ++ ch! "CH0:xtdf", ch! "image", ch! "pulseId"], ⟨ids, [], 0⟩),
        ([ch! "INSTRUMENT", ch! "X_AGIPD1M-1", ch! "DET", [n] ++ ch! "CH0:xtdf", ch! "image", ch! "data"], ⟨rows, [1, 2, 2], 0⟩),
        ([ch! "INSTRUMENT", ch! "X_AGIPD1M-1", ch! "DET", [n] ++ ch! "CH0:xtdf", ch! "image", ch! "cellId"], ⟨ids, [], 0⟩)] }⟩

/-- The name of a source of the example. -/
def exSource (n : Char) : Str := ch! "X_AGIPD1M-1/DET/" ++ [n] ++ ch! "CH0:xtdf"

/-- Two modules; module 3 has no frames in train 12. -/
def exDetData : DC Nat where
  files := [exModule '3' [10, 11, 12] [0, 2, 4] [2, 2, 0] [5, 7, 5, 7] [100, 101, 110, 111],
    exModule '0' [10, 11, 12] [0, 2, 4] [2, 2, 2] [5, 7, 5, 7, 5, 7] [200, 201, 210, 211, 220, 221]]
  selection := [(exSource '3', none), (exSource '0', none)]
  trainIds := [10, 11, 12]
  ctxCloses := true

/-- The detector object for it. -/
def exDet : Det Nat where
  name := ch! "X_AGIPD1M-1"
  sourceToModno := [(exSource '3', 3), (exSource '0', 0)]
  framesPerTrain := 2
  data := { exDetData with ctxCloses := false }

set_option maxRecDepth 20000 in
theorem exDet_init : Det.init (some (ch! "_AGIPD1M")) exDetData none none 1 = .ok exDet := by decide

example : trainChunks exDet.data.trainIds = [[10, 11, 12]] := by decide

set_option maxRecDepth 20000 in
/-- By pulse ID, and by number in the train. -/
theorem exDet_array :
    exDet.getArray ⟨true, true⟩ id (ch! "image.data") (.by_ true (.list [7])) = .ok (.pulses ⟨[0, 3], [10, 11, 12], [7], [2, 2],
      [(0, [((10, 7), 201), ((11, 7), 211), ((12, 7), 221)]), (3, [((10, 7), 101), ((11, 7), 111)])]⟩) ∧
    exDet.getArray ⟨true, true⟩ id (ch! "image.data") (.by_ false (.slice .none (.int 1) .none)) = .ok (.pulses
      ⟨[0, 3], [10, 11, 12], [5], [2, 2],
      [(0, [((10, 5), 200), ((11, 5), 210), ((12, 5), 220)]), (3, [((10, 5), 100), ((11, 5), 110)])]⟩) := ⟨by decide, by decide⟩

end KD

namespace KD
open Spec

theorem exModule_index {n : Char} {tids firsts counts ids rows : List Nat} (hn : n = '0' ∨ n = '3')
    (h3 : firsts.length = tids.length) (h4 : counts.length = tids.length) (h7 : ∀ n ∈ firsts, n < 2 ^ 64)
    (h8 : ∀ n ∈ counts, n < 2 ^ 64) :
    (exModule n tids firsts counts ids rows).getIndex (exSource n) (ch! "image") = .ok (firsts, counts) := by
  have hp : h5path (ch! "/INDEX/" ++ exSource n ++ ch! "/" ++ ch! "image")
      = [ch! "INDEX", ch! "X_AGIPD1M-1", ch! "DET", [n] ++ ch! "CH0:xtdf", ch! "image"] := by
    rcases hn with rfl | rfl <;> decide
  have e : ∀ l : List Nat, (∀ n ∈ l, n < 2 ^ 64) → (l.map (BitVec.ofNat 64)).map BitVec.toNat = l := by
    intro l hl
    rw [List.map_map]
    conv_rhs => rw [← List.map_id l]
    apply List.map_congr_left
    intro n hn
    simp only [Function.comp, BitVec.toNat_ofNat, id]
    exact Nat.mod_eq_of_lt (hl n hn)
  unfold FileAccess.getIndex FileAccess.readIndex
  dsimp only
  rw [hp]
  simp only [exModule, Dict.get?, if_true, need]
  rw [List.take_of_length_le (by simp [h3]), List.take_of_length_le (by simp [h4]), e _ h7, e _ h8]

theorem exModule_data {n : Char} {tids firsts counts ids rows : List Nat} (hn : n = '0' ∨ n = '3') :
    (exModule n tids firsts counts ids rows).dataset (ch! "INSTRUMENT") (exSource n) (ch! "image.data") = .ok ⟨rows, [1, 2, 2], 0⟩ ∧
    (exModule n tids firsts counts ids rows).dataset (ch! "INSTRUMENT") (exSource n) (ch! "image.pulseId") = .ok ⟨ids, [], 0⟩ ∧
    (exModule n tids firsts counts ids rows).dataset (ch! "INSTRUMENT") (exSource n) (ch! "image.cellId") = .ok ⟨ids, [], 0⟩ := by
  have hp : h5path (ch! "/" ++ ch! "INSTRUMENT" ++ ch! "/" ++ exSource n ++ ch! "/" ++ replaceCh '.' '/' (ch! "image.data"))
      = [ch! "INSTRUMENT", ch! "X_AGIPD1M-1", ch! "DET", [n] ++ ch! "CH0:xtdf", ch! "image", ch! "data"] := by
    rcases hn with rfl | rfl <;> decide
  have hp2 : h5path (ch! "/" ++ ch! "INSTRUMENT" ++ ch! "/" ++ exSource n ++ ch! "/" ++ replaceCh '.' '/' (ch! "image.pulseId"))
      = [ch! "INSTRUMENT", ch! "X_AGIPD1M-1", ch! "DET", [n] ++ ch! "CH0:xtdf", ch! "image", ch! "pulseId"] := by
    rcases hn with rfl | rfl <;> decide
  have hp3 : h5path (ch! "/" ++ ch! "INSTRUMENT" ++ ch! "/" ++ exSource n ++ ch! "/" ++ replaceCh '.' '/' (ch! "image.cellId"))
      = [ch! "INSTRUMENT", ch! "X_AGIPD1M-1", ch! "DET", [n] ++ ch! "CH0:xtdf", ch! "image", ch! "cellId"] := by
    rcases hn with rfl | rfl <;> decide
  refine ⟨?_, ?_, ?_⟩
  · unfold FileAccess.dataset
    rw [hp]
    simp only [exModule, Dict.get?, need]
    simp
  · unfold FileAccess.dataset
    rw [hp2]
    simp only [exModule, Dict.get?, need]
    rfl
  · unfold FileAccess.dataset
    rw [hp3]
    simp only [exModule, Dict.get?, need]
    simp

theorem exModule_valid {n : Char} {tids firsts counts ids rows : List Nat} (hn : n = '0' ∨ n = '3')
    (h1 : tids.Pairwise (· < ·)) (h2 : tids ≠ [])
    (h3 : firsts.length = tids.length) (h4 : counts.length = tids.length) (h5 : Contiguous firsts counts)
    (h6 : InBounds firsts counts rows.length) (h6' : ids.length = rows.length) (h7 : ∀ n ∈ firsts, n < 2 ^ 64)
    (h8 : ∀ n ∈ counts, n < 2 ^ 64) :
    ValidField (exModule n tids firsts counts ids rows) true (exSource n) (ch! "image.data") ∧
    ValidField (exModule n tids firsts counts ids rows) true (exSource n) (ch! "image.pulseId") ∧
    ValidField (exModule n tids firsts counts ids rows) true (exSource n) (ch! "image.cellId") := by
  have hcat : if true = true then exSource n ∈ (exModule n tids firsts counts ids rows).instrumentSources ∧
      exSource n ∉ (exModule n tids firsts counts ids rows).controlSources
    else exSource n ∈ (exModule n tids firsts counts ids rows).controlSources ∧
      exSource n ∉ (exModule n tids firsts counts ids rows).instrumentSources := by
    rw [if_pos rfl]
    exact ⟨List.mem_singleton.2 rfl, by simp [exModule]⟩
  have hix := exModule_index (ids := ids) (rows := rows) hn h3 h4 h7 h8
  exact ⟨⟨h1, h2, hcat, firsts, counts, _, hix, (exModule_data hn).1, h3, h4, h5, h6⟩,
    ⟨h1, h2, hcat, firsts, counts, _, hix, (exModule_data hn).2.1, h3, h4, h5, by simpa [h6'] using h6⟩,
    ⟨h1, h2, hcat, firsts, counts, _, hix, (exModule_data hn).2.2, h3, h4, h5, by simpa [h6'] using h6⟩⟩

/-- The example meets the hypotheses of `get_array_exact_partial`. -/
theorem exDet_valid : PlainSources exDet ∧ (∀ x ∈ exDet.sourceToModno, FramesValid exDetData x.1 (ch! "image.data")) ∧
    ∀ x ∈ exDet.sourceToModno, PulsesBelowMax id exDetData x.1 (ch! "image.data") := by
  have v3 := exModule_valid (n := '3') (tids := [10, 11, 12]) (firsts := [0, 2, 4]) (counts := [2, 2, 0]) (ids := [5, 7, 5, 7])
    (rows := [100, 101, 110, 111]) (Or.inr rfl) (by decide) (by decide) rfl rfl
    (contiguous_cons rfl (contiguous_cons rfl (contiguous_one _ _)))
    (inBounds_cons (by decide) (inBounds_cons (by decide) (inBounds_cons (by decide) (inBounds_nil _)))) rfl (by decide) (by decide)
  have v0 := exModule_valid (n := '0') (tids := [10, 11, 12]) (firsts := [0, 2, 4]) (counts := [2, 2, 2]) (ids := [5, 7, 5, 7, 5, 7])
    (rows := [200, 201, 210, 211, 220, 221]) (Or.inl rfl) (by decide) (by decide) rfl rfl
    (contiguous_cons rfl (contiguous_cons rfl (contiguous_one _ _)))
    (inBounds_cons (by decide) (inBounds_cons (by decide) (inBounds_cons (by decide) (inBounds_nil _)))) rfl (by decide) (by decide)
  have hno : ¬ Holds (exModule '0' [10, 11, 12] [0, 2, 4] [2, 2, 2] [5, 7, 5, 7, 5, 7] [200, 201, 210, 211, 220, 221]) (exSource '3') ∧
      ¬ Holds (exModule '3' [10, 11, 12] [0, 2, 4] [2, 2, 0] [5, 7, 5, 7] [100, 101, 110, 111]) (exSource '0') := by
    constructor <;> (rintro (h | h) <;> revert h <;> decide)
  have key : ∀ f ∈ exDetData.files, ∀ x ∈ exDet.sourceToModno, Holds f x.1 →
      (f = exModule '3' [10, 11, 12] [0, 2, 4] [2, 2, 0] [5, 7, 5, 7] [100, 101, 110, 111] ∧ x.1 = exSource '3') ∨
      (f = exModule '0' [10, 11, 12] [0, 2, 4] [2, 2, 2] [5, 7, 5, 7, 5, 7] [200, 201, 210, 211, 220, 221] ∧ x.1 = exSource '0') := by
    intro f hf x hx hh
    simp only [exDetData, List.mem_cons, List.not_mem_nil, or_false] at hf
    simp only [exDet, List.mem_cons, List.not_mem_nil, or_false] at hx
    rcases hf with rfl | rfl <;> rcases hx with rfl | rfl
    · exact Or.inl ⟨rfl, rfl⟩
    · exact absurd hh hno.2
    · exact absurd hh hno.1
    · exact Or.inr ⟨rfl, rfl⟩
  refine ⟨?_, ?_, ?_⟩
  · intro x hx
    simp only [exDet, List.mem_cons, List.not_mem_nil, or_false] at hx
    rcases hx with rfl | rfl <;> (intro c hc; revert c; decide)
  · intro x hx
    constructor <;> intro f hf hh
    · rcases key f hf x hx hh with ⟨rfl, e⟩ | ⟨rfl, e⟩ <;> rw [e]
      · exact v3.1
      · exact v0.1
    · rcases key f hf x hx hh with ⟨rfl, e⟩ | ⟨rfl, e⟩ <;> rw [e]
      · exact v3.2.1
      · exact v0.2.1
  · rintro x hx t k p v ⟨f, hf, hh, i, firsts, counts, first, count, w1, w2, w3, w4, w5, ⟨pds, w6, z, w7, w8⟩, _⟩
    have hp : pulseIdKey (ch! "image.data") = ch! "image.pulseId" := by decide
    have hg : (partition '.' (ch! "image.data")).1 = ch! "image" := by decide
    rw [hp] at w6
    rw [hg] at w2
    have hz := List.mem_of_getElem? w7
    have hc := List.mem_of_getElem? w4
    rcases key f hf x hx hh with ⟨rfl, e⟩ | ⟨rfl, e⟩ <;> rw [e] at w2 w6
    · rw [(exModule_data (Or.inr rfl)).2.1] at w6
      rw [exModule_index (firsts := [0, 2, 4]) (counts := [2, 2, 0]) (tids := [10, 11, 12]) (ids := [5, 7, 5, 7]) (rows := [100, 101, 110, 111]) (Or.inr rfl) rfl rfl (by decide) (by decide)] at w2
      obtain rfl := Except.ok.inj w6
      obtain ⟨rfl, rfl⟩ := Prod.mk.inj (Except.ok.inj w2)
      simp at hz hc w8
      omega
    · rw [(exModule_data (Or.inl rfl)).2.1] at w6
      rw [exModule_index (firsts := [0, 2, 4]) (counts := [2, 2, 2]) (tids := [10, 11, 12]) (ids := [5, 7, 5, 7, 5, 7])
        (rows := [200, 201, 210, 211, 220, 221]) (Or.inl rfl) rfl rfl (by decide) (by decide)] at w2
      obtain rfl := Except.ok.inj w6
      obtain ⟨rfl, rfl⟩ := Prod.mk.inj (Except.ok.inj w2)
      simp at hz hc w8
      omega

/-- As files can be when a train has no frames: its index entry is 0. Trains 11 and 12 are selected. -/
def exDetZero : DC Nat where
  files := [exModule '3' [10, 11, 12] [0, 2, 4] [2, 2, 2] [5, 7, 5, 7, 5, 7] [100, 101, 110, 111, 120, 121],
    exModule '0' [10, 11, 12] [0, 0, 2] [2, 0, 2] [5, 7, 5, 7] [200, 201, 220, 221]]
  selection := [(exSource '3', none), (exSource '0', none)]
  trainIds := [11, 12]
  ctxCloses := true

set_option maxRecDepth 20000 in
/-- C60 is wrong for files with indexes which are not contiguous: here the frames 200 and 201 of module 0, recorded in train
10, are given as those of train 12 (which has 220 and 221), and there is no exception. -/
theorem get_array_index_wrong :
    ∃ d a, Det.init none exDetZero none none 1 = .ok d ∧
      d.getArray ⟨true, true⟩ id (ch! "image.data") (.by_ false (.slice .none .none .none)) = .ok (.pulses a) ∧
      a.cell 0 12 5 = some 200 ∧ a.cell 0 12 7 = some 201 ∧
      ∀ f ∈ exDetZero.files, exSource '0' ∈ f.instrumentSources →
        fileEntries f true (exSource '0') (ch! "image.data") 10 = [200, 201] ∧
        fileEntries f true (exSource '0') (ch! "image.data") 12 = [220, 221] := by
  refine ⟨⟨ch! "X_AGIPD1M-1", [(exSource '3', 3), (exSource '0', 0)], 2, { exDetZero with ctxCloses := false }⟩,
    ⟨[0, 3], [11, 12], [5, 7], [2, 2], [(0, [((12, 5), 200), ((12, 7), 201)]),
      (3, [((11, 5), 110), ((11, 7), 111), ((12, 5), 120), ((12, 7), 121)])]⟩, by decide, by decide, by decide, by decide, ?_⟩
  decide

end KD

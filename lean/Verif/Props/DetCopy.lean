/-
C126: detector data of copies.
-/
import Verif.Props.DetInit
import Verif.Props.DetRuns
import Verif.Props.CxiArray
import Verif.Props.CopyTrains
import Verif.Props.DetIterSuccess
import Verif.Props.DetPart

set_option linter.unusedSimpArgs false

namespace KD
open Spec

variable {V : Type}

/-- The frames of the trains of a collection, in terms of what `get_array` reads. -/
theorem frameOf_labelled {num : V → Nat} {c : DC V} {s nm : Str} {a b : LArr V} (hc : NoConflict c.files)
    (h1 : FollowsIn c c.trainIds true s (ch! "image." ++ nm)) (h2 : FollowsIn c c.trainIds true s (ch! "image.pulseId"))
    (ha : c.getArray s (ch! "image." ++ nm) id = .ok a) (hb : c.getArray s (ch! "image.pulseId") id = .ok b)
    {t k p : Nat} {v : V} (ht : t ∈ c.trainIds) :
    FrameOf num c s (ch! "image." ++ nm) t k p v ↔
      (labelled a t)[k]? = some v ∧ ∃ x, (labelled b t)[k]? = some x ∧ num x = p := by
  obtain ⟨-, a1, a2⟩ := get_array_follows hc h1 ha
  obtain ⟨-, b1, b2⟩ := get_array_follows hc h2 hb
  constructor
  · rintro ⟨f, hf, hh, hfr⟩
    have htf := frameIn_mem hfr
    rw [frameIn_entries (h1 f hf hh).2.2.1 (h2 f hf hh).2.2.1] at hfr
    rw [a1 t ht f hf hh htf, b1 t ht f hf hh htf, List.map_id, List.map_id]
    exact hfr
  · rintro ⟨hv, hx⟩
    have : ∃ f ∈ c.files, Holds f s ∧ t ∈ f.trainIds := by
      by_contra hcon
      rw [a2 t (Or.inr (fun f hf hh htf => hcon ⟨f, hf, hh, htf⟩))] at hv
      simp at hv
    obtain ⟨f, hf, hh, htf⟩ := this
    rw [a1 t ht f hf hh htf, List.map_id] at hv
    rw [b1 t ht f hf hh htf, List.map_id] at hx
    exact ⟨f, hf, hh, (frameIn_entries (h1 f hf hh).2.2.1 (h2 f hf hh).2.2.1).2 ⟨hv, hx⟩⟩

/-- The number of frames, if there are any, in terms of what `get_array` reads. -/
theorem frameCount_labelled {c : DC V} {s : Str} {a : LArr V} (hc : NoConflict c.files)
    (h1 : FollowsIn c c.trainIds true s (ch! "image.data")) (ha : c.getArray s (ch! "image.data") id = .ok a)
    {t n : Nat} (hn : 0 < n) : FrameCount c s t n ↔ t ∈ c.trainIds ∧ (labelled a t).length = n := by
  obtain ⟨-, a1, a2⟩ := get_array_follows hc h1 ha
  constructor
  · rintro ⟨ht, f, hf, hh, htf, rfl⟩
    exact ⟨ht, by rw [a1 t ht f hf hh htf, List.map_id]⟩
  · rintro ⟨ht, hl⟩
    have : ∃ f ∈ c.files, Holds f s ∧ t ∈ f.trainIds := by
      by_contra hcon
      rw [a2 t (Or.inr (fun f hf hh htf => hcon ⟨f, hf, hh, htf⟩))] at hl
      simp at hl
      omega
    obtain ⟨f, hf, hh, htf⟩ := this
    refine ⟨ht, f, hf, hh, htf, ?_⟩
    rw [← hl, a1 t ht f hf hh htf, List.map_id]

/-- What two collections must have in common for detectors to show the same. -/
structure SameImages (c e : DC V) (s : Str) : Prop where
  counts : ∀ t n, 0 < n → (FrameCount e s t n ↔ FrameCount c s t n)

theorem enough_same {c e : DC V} {l l' : List Str} {min : Int} {t : Nat} (hl : ∀ s, s ∈ l' ↔ s ∈ l)
    (hs : ∀ s ∈ l, SameImages c e s) : EnoughModules e l' min t ↔ EnoughModules c l min t := by
  constructor
  · rintro ⟨present, h1, h2, h3⟩
    refine ⟨present, h1, fun s hs' => ?_, h3⟩
    obtain ⟨h4, n, h5, h6⟩ := h2 s hs'
    exact ⟨(hl s).1 h4, n, h5, ((hs s ((hl s).1 h4)).counts t n h5).1 h6⟩
  · rintro ⟨present, h1, h2, h3⟩
    refine ⟨present, h1, fun s hs' => ?_, h3⟩
    obtain ⟨h4, n, h5, h6⟩ := h2 s hs'
    exact ⟨(hl s).2 h4, n, h5, ((hs s h4).counts t n h5).2 h6⟩

/-- The parts of a copy needed here. -/
theorem copy_images {c e : DC V} (hc : Copyable c) (h : CopyOf c e) {s key : Str} (hF : HasField c true s key) :
    HasField e true s key ∧ FollowsIn c c.trainIds true s key ∧ FollowsIn e e.trainIds true s key ∧
      ∃ a, c.getArray s key id = .ok a ∧ e.getArray s key id = .ok a := by
  obtain ⟨k1, k2, k3, k4, k5, k6⟩ := copies_same hc h
  have hav : Available c s key := by
    obtain ⟨h1, h2⟩ := hF
    exact ⟨mem_all.2 (Or.inr h1), h2⟩
  have hF' : HasField e true s key := ⟨(k4 s).2 hF.1, ((k5 s key).2 hav).2⟩
  exact ⟨hF', hc.writable.valid _ _ _ hF, k1.writable.valid _ _ _ hF', k6 s key hav V id⟩

theorem copy_hasImages {c e : DC V} (hc : Copyable c) (h : CopyOf c e) {s : Str} (hF : HasField c true s (ch! "image.data"))
    (hi : HasImages c s) : HasImages e s := by
  have hval := (copy_images hc h hF).2.2.1
  refine ⟨fun f hf hh => (hval f hf hh).2.2.1, ?_⟩
  cases h with
  | self => exact hi.2
  | @copy d _ kind hh name hd hw hs ho =>
    obtain ⟨k1, -⟩ := copies_same hc hd
    obtain ⟨hFd, -⟩ := copy_images hc hd hF
    obtain ⟨f, hf1, hf⟩ := written_full k1 hw hs name
    rw [hf1] at ho
    have he : e = DC.single f := fromPath_eq.1 ho
    subst he
    intro g hg hgh
    have : g = f := by simpa [DC.single] using hg
    subst this
    obtain ⟨ks, hk1, hk2⟩ := hf.keys s (mem_all.2 (Or.inr hFd.1))
    exact ⟨⟨ks, hk1, (hk2 _).2 ⟨mem_all.2 (Or.inr hFd.1), hFd.2⟩⟩, (hval g hg hgh).2.1⟩

/-- The frames of copies are those of the original in its trains. -/
theorem copy_frames {c e : DC V} (hc : Copyable c) (h : CopyOf c e) {num : V → Nat} {s nm : Str}
    (hF : HasField c true s (ch! "image." ++ nm)) (hF' : HasField c true s (ch! "image.pulseId")) :
    (∀ t k p v, t ∈ c.trainIds → (FrameOf num e s (ch! "image." ++ nm) t k p v ↔ FrameOf num c s (ch! "image." ++ nm) t k p v)) ∧
    ∀ t k p v, FrameOf num e s (ch! "image." ++ nm) t k p v → FrameOf num c s (ch! "image." ++ nm) t k p v := by
  obtain ⟨k1, k2, -⟩ := copies_same hc h
  have key : ∀ t k p v, t ∈ c.trainIds →
      (FrameOf num e s (ch! "image." ++ nm) t k p v ↔ FrameOf num c s (ch! "image." ++ nm) t k p v) := by
    intro t k p v ht
    obtain ⟨-, v1, v2, ar, a1, a2⟩ := copy_images hc h hF
    obtain ⟨-, w1, w2, br, b1, b2⟩ := copy_images hc h hF'
    rw [frameOf_labelled hc.writable.noConflict v1 w1 a1 b1 ht,
      frameOf_labelled k1.writable.noConflict v2 w2 a2 b2 (by rw [k2]; exact ht)]
  refine ⟨key, fun t k p v hfe => ?_⟩
  cases h with
  | self => exact hfe
  | @copy d0 _ kind hh name' hd0 hw hs ho =>
    obtain ⟨m1, m2, -⟩ := copies_same hc hd0
    obtain ⟨f, hf1, hf⟩ := written_full m1 hw hs name'
    rw [hf1] at ho
    have he : e = DC.single f := fromPath_eq.1 ho
    subst he
    refine (key t k p v ?_).1 hfe
    obtain ⟨g, hg, -, hgr⟩ := hfe
    have : g = f := by simpa [DC.single] using hg
    subst this
    rw [← m2, ← hf.trains]
    exact frameIn_mem hgr

/-- The detector interface, with `min_modules` at least 1, depends on the sources and on the counts of frames only. -/
theorem images_detector {kind : Option Str} {c e : DC V} {name : Str} {modules : Option (List Nat)} {min : Int} {d : Det V}
    (hcn : NoConflict c.files) (hen : NoConflict e.files) (k4 : ∀ s, s ∈ e.instrumentSources ↔ s ∈ c.instrumentSources)
    (hd : Det.init kind c (some name) modules min = .ok d) (hmin : 1 ≤ min) (hp : PlainSources d)
    (hsame : ∀ x ∈ d.sourceToModno, SameImages c e x.1) (hi : ∀ x ∈ d.sourceToModno, HasImages c x.1)
    (hie : ∀ x ∈ d.sourceToModno, HasImages e x.1) :
    ∃ d', Det.init kind e (some name) modules min = .ok d' ∧ (∀ x, x ∈ d'.sourceToModno ↔ x ∈ d.sourceToModno) ∧
      (∀ t, t ∈ d'.data.trainIds ↔ t ∈ d.data.trainIds) ∧ d'.framesPerTrain = d.framesPerTrain := by
  have hdn : d.name = name := (init_ok hd).1 name rfl
  have hid := (init_ok hd).2.2.1
  rw [hdn] at hid
  obtain ⟨i1, i2, i3⟩ := identify_sources c name modules
  obtain ⟨j1, j2, j3⟩ := identify_sources e name modules
  obtain ⟨s2m, hs2m⟩ : ∃ s2m, identifySources e name modules = .ok s2m := by
    cases hh : identifySources e name modules with
    | ok x => exact ⟨x, rfl⟩
    | error er =>
      exfalso
      have := j2 er hh
      subst this
      have := i1.2 (fun s hs n => (j1.1 hh) s ((k4 s).2 hs) n)
      rw [this] at hid
      simp at hid
  have hmem : ∀ x, x ∈ s2m ↔ x ∈ d.sourceToModno := by
    rintro ⟨s, n⟩
    rw [j3 s2m hs2m, i3 _ hid, k4]
  have hfst : ∀ s, s ∈ s2m.map Prod.fst ↔ s ∈ d.sourceToModno.map Prod.fst := by
    intro s
    simp only [List.mem_map, hmem]
  have hsame' : ∀ s ∈ d.sourceToModno.map Prod.fst, SameImages c e s := by
    intro s hs
    obtain ⟨x, hx, rfl⟩ := List.mem_map.1 hs
    exact hsame x hx
  have hp' : ∀ x ∈ s2m, PlainName x.1 := fun x hx => hp x ((hmem x).1 hx)
  have hi' : ∀ x ∈ s2m, HasImages e x.1 := fun x hx => hie x ((hmem x).1 hx)
  obtain ⟨f1, f2, f3⟩ := detector_fails (kind := kind) (minModules := min) hs2m hen hp' hi'
  obtain ⟨g1, -, -⟩ := detector_fails (kind := kind) (minModules := min) hid hcn hp hi
  have hok : ∃ d', Det.init kind e (some name) modules min = .ok d' := by
    cases hh : Det.init kind e (some name) modules min with
    | ok x => exact ⟨x, rfl⟩
    | error er =>
      exfalso
      rcases f2 er hh with rfl | rfl
      · have hbad : Det.init kind c (some name) modules min = .error .value := by
          refine g1.2 ?_
          rcases f1.1 hh with hx | hx | hx
          · left
            rintro ⟨s, t, n, h1, h2, h3⟩
            exact hx ⟨s, t, n, (hfst s).2 h1, ((hsame' s h1).counts t n h3).2 h2, h3⟩
          · right; left
            obtain ⟨s, t, n, s', t', n', h1, h2, h3, h4, h5, h6, h7⟩ := hx
            exact ⟨s, t, n, s', t', n', (hfst s).1 h1, ((hsame' s ((hfst s).1 h1)).counts t n h5).1 h2, (hfst s').1 h3,
              ((hsame' s' ((hfst s').1 h3)).counts t' n' h6).1 h4, h5, h6, h7⟩
          · right; right
            rintro ⟨t, s, n, h1, h2, h3⟩
            have he := (enough_same hfst hsame').2 h3
            obtain ⟨present, h4, h5, h6⟩ := he
            cases present with
            | nil => simp at h6; omega
            | cons s0 l =>
              obtain ⟨h7, n0, h8, h9⟩ := h5 s0 (by simp)
              exact hx ⟨t, s0, n0, h7, h9, s0 :: l, h4, h5, h6⟩
        rw [hd] at hbad
        simp at hbad
      · obtain ⟨s, s', n, h1, h2, h3⟩ := f3 hh
        have := List.inj_on_of_nodup_map (init_ok hd).2.2.2.1 ((hmem _).1 h2) ((hmem _).1 h3) rfl
        exact h1 (Prod.mk.inj this).1
  obtain ⟨d', hd'⟩ := hok
  have hid' := (init_ok hd').2.2.1
  rw [(init_ok hd').1 name rfl, hs2m] at hid'
  have hs2m' : d'.sourceToModno = s2m := (Except.ok.inj hid').symm
  have hpd' : PlainSources d' := by intro x hx; rw [hs2m'] at hx; exact hp' x hx
  have hid' : ∀ x ∈ d'.sourceToModno, HasImages e x.1 := by intro x hx; rw [hs2m'] at hx; exact hi' x hx
  refine ⟨d', hd', fun x => by rw [hs2m']; exact hmem x, ?_, ?_⟩
  · intro t
    rw [detector_min_modules hd' hen hpd' hid' hmin, detector_min_modules hd hcn hp hi hmin, hs2m']
    exact enough_same hfst hsame'
  · refine (detector_frames hd hcn hp hi _).2 ?_
    obtain ⟨h1, s, t, h2, h3⟩ := (detector_frames hd' hen hpd' hid' _).1 rfl
    rw [hs2m'] at h2
    exact ⟨h1, s, t, (hfst s).1 h2, ((hsame' s ((hfst s).1 h2)).counts t _ h1).1 h3⟩

/-- C126. The detector interface of a copy (made with `write` or `write_virtual`, any number of times) can be made if that of
the original can, with `min_modules` at least 1; it has the same modules, trains and number of frames. -/
theorem copy_detector {kind : Option Str} {c e : DC V} {name : Str} {modules : Option (List Nat)} {min : Int} {d : Det V}
    (hc : Copyable c) (h : CopyOf c e) (hd : Det.init kind c (some name) modules min = .ok d) (hmin : 1 ≤ min) (hp : PlainSources d)
    (hF : ∀ x ∈ d.sourceToModno, HasField c true x.1 (ch! "image.data")) (hi : ∀ x ∈ d.sourceToModno, HasImages c x.1) :
    ∃ d', Det.init kind e (some name) modules min = .ok d' ∧ (∀ x, x ∈ d'.sourceToModno ↔ x ∈ d.sourceToModno) ∧
      (∀ t, t ∈ d'.data.trainIds ↔ t ∈ d.data.trainIds) ∧ d'.framesPerTrain = d.framesPerTrain := by
  obtain ⟨k1, k2, k3, k4, k5, k6⟩ := copies_same hc h
  have hcn := hc.writable.noConflict
  have hen := k1.writable.noConflict
  have hsame : ∀ x ∈ d.sourceToModno, SameImages c e x.1 := by
    intro x hx
    obtain ⟨-, v1, v2, a, a1, a2⟩ := copy_images hc h (hF x hx)
    refine ⟨fun t n hn => ?_⟩
    rw [frameCount_labelled hcn v1 a1 hn, frameCount_labelled hen v2 a2 hn, k2]
  exact images_detector hcn hen k4 hd hmin hp hsame hi (fun x hx => copy_hasImages hc h (hF x hx) (hi x hx))

/-- Only labelled modules have entries in an array of detector data. -/
theorem cell_module {kind : Option Str} {c : DC V} {name : Option Str} {modules : Option (List Nat)} {minModules : Int}
    {d : Det V} {libs : Libs} {num : V → Nat} {key : Str} {arg : PulseArg} {a : DetArr V} {m t p : Nat} {v : V}
    (hd : Det.init kind c name modules minModules = .ok d) (h : d.getArray libs num key arg = .ok (.pulses a))
    (hv : ModulesRight num d key) (hx : a.cell m t p = some v) : m ∈ a.modules := by
  obtain ⟨ps, l, hps, ha, -⟩ := getArray_modules hd h hv
  obtain ⟨e1, e2, -⟩ := concatModules_ok ha
  unfold DetArr.cell at hx
  by_contra hn
  have : Dict.get? a.cells m = none := by
    rw [Dict.get?_none_iff]
    intro hm
    apply hn
    rw [e1]
    rw [e2] at hm
    simpa [Dict.keys] using hm
  rw [this] at hx
  simp at hx

/-- Arrays of detector data depend on the modules, the trains and the frames of these trains only. -/
theorem frames_detector_array {kind : Option Str} {c e : DC V} {name : Option Str} {modules : Option (List Nat)} {min : Int} {d d' : Det V}
    {libs : Libs} {num : V → Nat} {key : Str} {arg : PulseArg} {a a' : DetArr V}
    (hd : Det.init kind c name modules min = .ok d) (hd' : Det.init kind e name modules min = .ok d')
    (hp : PlainSources d) (hp' : PlainSources d') (hmem : ∀ x, x ∈ d'.sourceToModno ↔ x ∈ d.sourceToModno)
    (htr : ∀ t, t ∈ d'.data.trainIds ↔ t ∈ d.data.trainIds)
    (hv1 : ModulesRight num d key) (hv2 : ModulesRight num d' key)
    (hmax : ∀ x ∈ d.sourceToModno, PulsesBelowMax num c x.1 key) (hmax' : ∀ x ∈ d'.sourceToModno, PulsesBelowMax num e x.1 key)
    (hfr : ∀ x ∈ d.sourceToModno, ∀ t k p v, t ∈ d.data.trainIds → (FrameOf num e x.1 key t k p v ↔ FrameOf num c x.1 key t k p v))
    (ha : d.getArray libs num key arg = .ok (.pulses a)) (ha' : d'.getArray libs num key arg = .ok (.pulses a')) :
    a'.modules = a.modules ∧ a'.trains = a.trains ∧ a'.pulses = a.pulses ∧
      ∀ m t p, a'.cell m t p = a.cell m t p := by
  obtain ⟨l1, l2, l3, l4, l5, l6⟩ := get_array_labels_of hd ha hv1
  obtain ⟨n1, n2, n3, n4, n5, n6⟩ := get_array_labels_of hd' ha' hv2
  have hms : ∀ m, m ∈ a'.modules ↔ m ∈ a.modules := by
    intro m
    rw [l1, n1]
    constructor
    · rintro ⟨s, hs⟩; exact ⟨s, (hmem _).1 hs⟩
    · rintro ⟨s, hs⟩; exact ⟨s, (hmem _).2 hs⟩
  have hcell : ∀ m ∈ a.modules, ∀ t p, a'.cell m t p = a.cell m t p := by
    intro m hm t p
    obtain ⟨s, hs⟩ := (l1 m).1 hm
    apply Option.ext
    intro v
    rw [get_array_exact_of hd' ha' hp' hv2 hmax' ((hmem _).2 hs), get_array_exact_of hd ha hp hv1 hmax hs, htr]
    constructor
    · rintro ⟨h1, k, h2, h3⟩; exact ⟨h1, k, (hfr _ hs t k p v h1).1 h2, h3⟩
    · rintro ⟨h1, k, h2, h3⟩; exact ⟨h1, k, (hfr _ hs t k p v h1).2 h2, h3⟩
  have hcell' : ∀ m t p, a'.cell m t p = a.cell m t p := by
    intro m t p
    by_cases hm : m ∈ a.modules
    · exact hcell m hm t p
    · have h1 : a.cell m t p = none := by
        cases hx : a.cell m t p with
        | none => rfl
        | some v => exact absurd (cell_module hd ha hv1 hx) hm
      have h2 : a'.cell m t p = none := by
        cases hx : a'.cell m t p with
        | none => rfl
        | some v => exact absurd ((hms m).1 (cell_module hd' ha' hv2 hx)) hm
      rw [h1, h2]
  refine ⟨eq_of_pairwise_lt n4 l4 hms, eq_of_pairwise_lt n5 l5 ?_, eq_of_pairwise_lt n6 l6 ?_, hcell'⟩
  · intro t
    rw [n2, l2]
    simp only [hcell']
  · intro p
    rw [n3, l3]
    simp only [hcell']

theorem copy_runs {kind : Option Str} {c e : DC V} {name : Option Str} {modules : Option (List Nat)} {min : Int} {d d' : Det V}
    (hc : Copyable c) (h : CopyOf c e) (hd : Det.init kind c name modules min = .ok d) (hd' : Det.init kind e name modules min = .ok d')
    {s nm : Str} (hF : HasField c true s (ch! "image." ++ nm)) (hF' : HasField c true s (ch! "image.pulseId"))
    (hv : RunsValid c d.data.trainIds s (ch! "image." ++ nm)) : RunsValid e d'.data.trainIds s (ch! "image." ++ nm) := by
  rcases copy_cases hc h with rfl | ⟨d0, f, h0, hc0, hf, rfl⟩
  · rw [hd] at hd'
    obtain rfl := Except.ok.inj hd'
    exact hv
  · apply runsValid_of_valid
    have hfield : ∀ k, HasField c true s k → ValidIn (DC.single f) true s k := by
      intro k hk g hg _
      obtain rfl := mem_single.1 hg
      exact (hf.fields true s k (copy_images hc h0 hk).1).1
    exact ⟨hfield _ hF, by rw [image_pulseId]; exact hfield _ hF'⟩

/-- C126. The arrays of detector data read from a copy and from the original have the same entries at the same labels. -/
theorem copy_detector_array {kind : Option Str} {c e : DC V} {name : Str} {modules : Option (List Nat)} {min : Int} {d d' : Det V}
    {libs : Libs} {num : V → Nat} {key : Str} {arg : PulseArg} {a a' : DetArr V}
    (hc : Copyable c) (h : CopyOf c e) (hd : Det.init kind c (some name) modules min = .ok d)
    (hd' : Det.init kind e (some name) modules min = .ok d') (hmin : 1 ≤ min) (hp : PlainSources d)
    (hF : ∀ x ∈ d.sourceToModno, HasField c true x.1 (ch! "image.data") ∧ HasField c true x.1 key ∧
      HasField c true x.1 (ch! "image.pulseId"))
    (hi : ∀ x ∈ d.sourceToModno, HasImages c x.1) (hr : ∀ x ∈ d.sourceToModno, RunsValid c d.data.trainIds x.1 key)
    (hmax : ∀ x ∈ d.sourceToModno, PulsesBelowMax num c x.1 key)
    (ha : d.getArray libs num key arg = .ok (.pulses a)) (ha' : d'.getArray libs num key arg = .ok (.pulses a')) :
    a'.modules = a.modules ∧ a'.trains = a.trains ∧ a'.pulses = a.pulses ∧
      ∀ m t p, a'.cell m t p = a.cell m t p := by
  obtain ⟨k1, k2, k3, k4, k5, k6⟩ := copies_same hc h
  obtain ⟨d'', hd'', hmem, htr, -⟩ := copy_detector hc h hd hmin hp (fun x hx => (hF x hx).1) hi
  rw [hd'] at hd''
  obtain rfl := Except.ok.inj hd''
  have hcn := hc.writable.noConflict
  have hen := k1.writable.noConflict
  obtain ⟨hk, -⟩ := getArray_pulses ha
  obtain ⟨nm, rfl⟩ : ∃ nm, key = ch! "image." ++ nm := by
    unfold startsWith at hk
    obtain ⟨t, ht⟩ := List.isPrefixOf_iff_prefix.1 hk
    exact ⟨t, ht.symm⟩
  have hp' : PlainSources d' := fun x hx => hp x ((hmem x).1 hx)
  have hv2 : ∀ x ∈ d'.sourceToModno, RunsValid e d'.data.trainIds x.1 (ch! "image." ++ nm) := fun x hx =>
    copy_runs hc h hd hd' (hF x ((hmem x).1 hx)).2.1 (hF x ((hmem x).1 hx)).2.2 (hr x ((hmem x).1 hx))
  have hfr : ∀ x ∈ d.sourceToModno, ∀ t k p v, t ∈ c.trainIds →
      (FrameOf num e x.1 (ch! "image." ++ nm) t k p v ↔ FrameOf num c x.1 (ch! "image." ++ nm) t k p v) :=
    fun x hx => (copy_frames hc h (hF x hx).2.1 (hF x hx).2.2).1
  have htc : ∀ t ∈ d.data.trainIds, t ∈ c.trainIds := fun t ht => ((detector_trains hd hcn hp hi t).1 ht).1
  have hback : ∀ x ∈ d.sourceToModno, ∀ t k p v, FrameOf num e x.1 (ch! "image." ++ nm) t k p v →
      FrameOf num c x.1 (ch! "image." ++ nm) t k p v :=
    fun x hx => (copy_frames hc h (hF x hx).2.1 (hF x hx).2.2).2
  have hmax' : ∀ x ∈ d'.sourceToModno, PulsesBelowMax num e x.1 (ch! "image." ++ nm) := fun x hx t k p v hfe =>
    hmax x ((hmem x).1 hx) t k p v (hback x ((hmem x).1 hx) t k p v hfe)
  exact frames_detector_array hd hd' hp hp' hmem htr (modulesRight_of_runs hd hp hr) (modulesRight_of_runs hd' hp' hv2) hmax hmax' (fun x hx t k p v ht => hfr x hx t k p v (htc t ht)) ha ha'

/-- C126. The array is made from a copy, with the same entries, whenever the conditions hold under which one is made from the
original (see `get_array_succeeds`). -/
theorem copy_detector_succeeds {kind : Option Str} {c e : DC V} {name : Str} {modules : Option (List Nat)} {min : Int} {d d' : Det V}
    {libs : Libs} {num : V → Nat} {key : Str} {arg : PulseArg} {ps : Pulses} {shape : List Nat}
    (hc : Copyable c) (h : CopyOf c e) (hd : Det.init kind c (some name) modules min = .ok d)
    (hd' : Det.init kind e (some name) modules min = .ok d') (hmin : 1 ≤ min) (hp : PlainSources d)
    (hF : ∀ x ∈ d.sourceToModno, HasField c true x.1 (ch! "image.data") ∧ HasField c true x.1 key ∧
      HasField c true x.1 (ch! "image.pulseId"))
    (hi : ∀ x ∈ d.sourceToModno, HasImages c x.1) (hr : ∀ x ∈ d.sourceToModno, RunsValid c d.data.trainIds x.1 key)
    (hmax : ∀ x ∈ d.sourceToModno, PulsesBelowMax num c x.1 key)
    (hk : ∃ rest, key = ch! "image." ++ rest)
    (hps : checkPulses libs arg = .ok ps) (hl : ∀ l, arg = .by_ false (.list l) → l.Pairwise (· < ·) ∧ ∀ i ∈ l, 0 ≤ i)
    (hcov : ∀ x ∈ d.sourceToModno, ∀ f ∈ c.files, Holds f x.1 → HasBetween f d.data.trainIds)
    (hsome : ∀ x ∈ d.sourceToModno, ∃ f ∈ c.files, Holds f x.1 ∧ ∃ t ∈ d.data.trainIds, t ∈ f.trainIds)
    (huniq : ∀ x ∈ d.sourceToModno, PulsesDistinct num c x.1 key)
    (hshape : ∀ x ∈ d.sourceToModno, ∀ f ∈ c.files, Holds f x.1 → ∀ ds, f.dataset (ch! "INSTRUMENT") x.1 key = .ok ds →
      ds.rowShape = shape)
    (hdim : (entryShape shape).length = 3 ∨ (entryShape shape).length = 2 ∨ (entryShape shape).length = 0) :
    ∃ a a', d.getArray libs num key arg = .ok (.pulses a) ∧ d'.getArray libs num key arg = .ok (.pulses a') ∧
      a'.rowShape = a.rowShape ∧ a'.modules = a.modules ∧ a'.trains = a.trains ∧ a'.pulses = a.pulses ∧
      ∀ m t p, a'.cell m t p = a.cell m t p := by
  obtain ⟨k1, k2, k3, k4, k5, k6⟩ := copies_same hc h
  obtain ⟨d'', hd'', hmem, htr, -⟩ := copy_detector hc h hd hmin hp (fun x hx => (hF x hx).1) hi
  rw [hd'] at hd''
  obtain rfl := Except.ok.inj hd''
  have hp' : PlainSources d' := fun x hx => hp x ((hmem x).1 hx)
  obtain ⟨nm, rfl⟩ := hk
  have hv2 : ∀ x ∈ d'.sourceToModno, RunsValid e d'.data.trainIds x.1 (ch! "image." ++ nm) := fun x hx =>
    copy_runs hc h hd hd' (hF x ((hmem x).1 hx)).2.1 (hF x ((hmem x).1 hx)).2.2 (hr x ((hmem x).1 hx))
  have htc : ∀ t ∈ d.data.trainIds, t ∈ c.trainIds := fun t ht =>
    ((detector_trains hd hc.writable.noConflict hp hi t).1 ht).1
  obtain ⟨a, ha, hra⟩ := get_array_runs_succeeds hd ⟨nm, rfl⟩ hps hl hp hr hcov hsome huniq hshape hdim
  have hone : ∀ x ∈ d.sourceToModno, (∀ f ∈ e.files, Holds f x.1 → HasBetween f d'.data.trainIds) ∧
      ∃ f ∈ e.files, Holds f x.1 ∧ ∃ t ∈ d'.data.trainIds, t ∈ f.trainIds := by
    intro x hx
    cases h with
    | self =>
      refine ⟨fun f hf hh t ht => hcov x hx f hf hh t ((htr t).1 ht), ?_⟩
      obtain ⟨f, h1, h2, t, h3, h4⟩ := hsome x hx
      exact ⟨f, h1, h2, t, (htr t).2 h3, h4⟩
    | @copy d0 _ kind hh name' hd0 hw hs ho =>
      obtain ⟨m1, m2, -, m4, -⟩ := copies_same hc hd0
      obtain ⟨f, hf1, hf⟩ := written_full m1 hw hs name'
      rw [hf1] at ho
      have he : e = DC.single f := fromPath_eq.1 ho
      subst he
      have htf : ∀ t ∈ d'.data.trainIds, t ∈ f.trainIds := fun t ht => by
        rw [hf.trains, m2]; exact htc t ((htr t).1 ht)
      constructor
      · intro g hg _ t ht _ _
        have : g = f := by simpa [DC.single] using hg
        subst this
        exact htf t ht
      · obtain ⟨-, -, -, t, h3, -⟩ := hsome x hx
        have h3' := (htr t).2 h3
        exact ⟨f, by simp [DC.single], Or.inr ((hf.instrument x.1).2 ((m4 x.1).2 (hF x hx).1.1)), t, h3', htf t h3'⟩
  obtain ⟨a', ha', hra'⟩ := get_array_runs_succeeds (num := num) (key := ch! "image." ++ nm) (shape := shape) hd' ⟨nm, rfl⟩ hps hl hp'
    hv2
    (fun x hx => (hone x ((hmem x).1 hx)).1) (fun x hx => (hone x ((hmem x).1 hx)).2)
    (by
      intro x hx t k k' p v v' h1 h2
      have hx' := (hmem x).1 hx
      have hb := (copy_frames hc h (num := num) (hF x hx').2.1 (hF x hx').2.2).2
      exact huniq x hx' t k k' p v v' (hb t k p v h1) (hb t k' p v' h2))
    (by
      intro x hx
      have hx' := (hmem x).1 hx
      exact copy_shape hc h (b := true) (P := fun sh => sh = shape) (hF x hx').2.1 (hshape x hx')) hdim
  exact ⟨a, a', ha, ha', by rw [hra, hra'], copy_detector_array hc h hd hd' hmin hp hF hi hr hmax ha ha'⟩

theorem exDet_field {b : Bool} {s k : Str} (h : HasField exDetData b s k) :
    b = true ∧ (∃ x ∈ exDet.sourceToModno, x.1 = s) ∧ (k = ch! "image.data" ∨ k = ch! "image.pulseId" ∨ k = ch! "image.cellId") := by
  obtain ⟨h1, ks, h2, h3⟩ := h
  cases b with
  | false =>
    have e : exDetData.controlSources = [] := by decide
    rw [if_neg (by decide), e] at h1
    simp at h1
  | true =>
    have e : exDetData.instrumentSources = [exSource '3', exSource '0'] := by decide
    rw [if_pos rfl, e] at h1
    have hk : ∀ x ∈ exDet.sourceToModno,
        exDetData.keysForSource x.1 = .ok [ch! "image.pulseId", ch! "image.data", ch! "image.cellId"] := by decide
    obtain ⟨x, hx, rfl⟩ : ∃ x ∈ exDet.sourceToModno, x.1 = s := by
      rcases List.mem_cons.1 h1 with rfl | hs
      · exact ⟨_, List.mem_cons_self, rfl⟩
      · rw [List.mem_singleton] at hs
        exact ⟨(exSource '0', 0), by simp [exDet], hs.symm⟩
    rw [hk x hx] at h2
    obtain rfl := Except.ok.inj h2
    simp only [List.mem_cons, List.not_mem_nil, or_false] at h3
    exact ⟨rfl, ⟨x, hx, rfl⟩, by tauto⟩

theorem exDet_writable : Writable exDetData := by
  refine ⟨⟨exDet_hasImages.1, by decide, by decide, ⟨by decide, ?_, ?_, ?_⟩, ?_⟩, fun b s k hF => inOrder_of_ranges b k ?_⟩
  · intro s hs
    have e : exDetData.instrumentSources = [exSource '3', exSource '0'] := by decide
    rw [e] at hs
    rcases List.mem_cons.1 hs with rfl | hs
    · exact ⟨ch! "X_AGIPD1M-1/DET/3CH0", ch! "xtdf", ⟨by decide, by decide⟩, by decide⟩
    · rw [List.mem_singleton] at hs
      subst hs
      exact ⟨ch! "X_AGIPD1M-1/DET/0CH0", ch! "xtdf", ⟨by decide, by decide⟩, by decide⟩
  · intro b s k h
    obtain ⟨-, -, rfl | rfl | rfl⟩ := exDet_field h
    · exact ⟨[ch! "image", ch! "data"], by decide, by decide, by decide⟩
    · exact ⟨[ch! "image", ch! "pulseId"], by decide, by decide, by decide⟩
    · exact ⟨[ch! "image", ch! "cellId"], by decide, by decide, by decide⟩
  · intro b s k s' k' h h' hp
    obtain ⟨-, ⟨x, hx, rfl⟩, -⟩ := exDet_field h
    obtain ⟨-, ⟨y, hy, rfl⟩, -⟩ := exDet_field h'
    have : ∀ x ∈ exDet.sourceToModno, ∀ y ∈ exDet.sourceToModno, comps x.1 <+: comps y.1 → x.1 = y.1 := by decide
    exact this x hx y hy hp
  · intro b s k h
    obtain ⟨rfl, ⟨x, hx, rfl⟩, hk⟩ := exDet_field h
    exact validIn_follows ((exDet_keys hk).2.2.1 x hx) _
  · obtain ⟨-, ⟨x, hx, rfl⟩, -⟩ := exDet_field hF
    intro f hf g hg hh1 hh2 hne
    exfalso
    apply hne
    rcases exDet_files hf hx hh1 with ⟨rfl, e⟩ | ⟨rfl, e⟩ <;> rcases exDet_files hg hx hh2 with ⟨rfl, e'⟩ | ⟨rfl, e'⟩
    · rfl
    · rw [e] at e'; revert e'; decide
    · rw [e] at e'; revert e'; decide
    · rfl

theorem exDet_apart : NamesApart exDetData := by
  refine ⟨?_, ?_, ?_⟩
  · intro b s parts parts' h h' hp hp' hpre
    have key : ∀ ps : List Str, (∀ p ∈ ps, p ≠ [] ∧ '/' ∉ p ∧ '.' ∉ p) →
        (joinCh '.' ps = ch! "image.data" ∨ joinCh '.' ps = ch! "image.pulseId" ∨ joinCh '.' ps = ch! "image.cellId") →
        ps.length = 2 := by
      intro ps h1 h2
      have h3 : ps ≠ [] := by
        rintro rfl
        rcases h2 with h | h | h <;> revert h <;> decide
      rw [← splitCh_joinCh h3 (fun p h => (h1 p h).2.2)]
      rcases h2 with h | h | h <;> rw [h] <;> decide
    have h1 := key parts hp (exDet_field h).2.2
    have h2 := key parts' hp' (exDet_field h').2.2
    exact hpre.eq_of_length (by rw [h1, h2])
  · have e : exDetData.allSources = [exSource '3', exSource '0'] := by decide
    rw [e]; decide
  · have e' : exDetData.controlSources = [] := by decide
    rw [e']; simp

theorem exDet_copyable : Copyable exDetData ∧ ∃ h, exDetData.write = .ok h := by
  have hb : (exDetData.write).toBool = true := by decide +kernel
  have hwr : ∃ h, exDetData.write = .ok h := by
    cases hw : exDetData.write with
    | error e => rw [hw] at hb; simp [Except.toBool] at hb
    | ok x => exact ⟨x, rfl⟩
  refine ⟨?_, hwr⟩
  obtain ⟨h, hw⟩ := hwr
  refine (copyable_of_write exDet_writable exDet_apart ?_ hw).1
  have e : exDetData.allSources = [exSource '3', exSource '0'] := by decide
  intro s hs
  have hs' := hs
  rw [e] at hs'
  have : exDetData.keysForSource s = .ok [ch! "image.pulseId", ch! "image.data", ch! "image.cellId"] := by
    rcases List.mem_cons.1 hs' with rfl | hs'
    · decide
    · rw [List.mem_singleton] at hs'; subst hs'; decide
  exact ⟨ch! "image.data", hs, _, this, by decide⟩

/-- The example meets the hypotheses: in each of its copies, and there are some, the detector has modules 0 and 3 and frames of
trains 10, 11 and 12. -/
example : (∃ e, CopyOf exDetData e ∧ e.files.length = 1) ∧
    ∀ e, CopyOf exDetData e → ∃ d, Det.init (some (ch! "_AGIPD1M")) e (some (ch! "X_AGIPD1M-1")) none 1 = .ok d ∧
      (∀ x, x ∈ d.sourceToModno ↔ x ∈ exDet.sourceToModno) ∧ (∀ t, t ∈ d.data.trainIds ↔ t ∈ [10, 11, 12]) ∧
      ∃ a, d.getArray ⟨true, true⟩ id (ch! "image.data") (.by_ true (.list [7])) = .ok (.pulses a) ∧ a.rowShape = [2, 2] ∧
        a.modules = [0, 3] ∧ a.trains = [10, 11, 12] ∧ a.pulses = [7] ∧ a.cell 3 11 7 = some 111 ∧ a.cell 3 12 7 = none := by
  obtain ⟨hc, hwr⟩ := exDet_copyable
  have hF : ∀ k, k = ch! "image.data" ∨ k = ch! "image.pulseId" ∨ k = ch! "image.cellId" → ∀ x ∈ exDet.sourceToModno,
      HasField exDetData true x.1 k := by
    intro k hk x hx
    have h1 : ∀ x ∈ exDet.sourceToModno, x.1 ∈ exDetData.instrumentSources ∧
        exDetData.keysForSource x.1 = .ok [ch! "image.pulseId", ch! "image.data", ch! "image.cellId"] := by decide
    refine ⟨(h1 x hx).1, _, (h1 x hx).2, ?_⟩
    simp only [List.mem_cons, List.not_mem_nil, or_false]
    tauto
  constructor
  · obtain ⟨h, hw, ho⟩ := copies_succeed exDet_writable exDet_apart hc.keys hwr CopyOf.self WriteKind.copy
    have hsz : ∀ p ∈ h.datasets, p.2.rows.length < 2 ^ 64 := by
      have : ∀ h, exDetData.writeAs WriteKind.copy = .ok h → ∀ p ∈ h.datasets, p.2.rows.length < 2 ^ 64 := by
        have e : (match exDetData.writeAs WriteKind.copy with
          | .ok h => decide (∀ p ∈ h.datasets, p.2.rows.length < 2 ^ 64)
          | .error _ => true) = true := by decide +kernel
        intro h hw
        rw [hw] at e
        simpa using e
      exact this h hw
    obtain ⟨d, hd, hcp⟩ := ho hsz (ch! "copy.h5")
    refine ⟨d, hcp, ?_⟩
    cases hi : FileAccess.init (ch! "copy.h5") h none with
    | error e => rw [hi] at hd; simp [DC.fromPath] at hd
    | ok f =>
      rw [hi] at hd
      have := fromPath_eq.1 hd
      subst this
      rfl
  · intro e he
    obtain ⟨d, hd, h1, h2, -⟩ := copy_detector hc he exDet_init_named (by decide) exDet_valid.1 (hF _ (Or.inl rfl)) exDet_hasImages.2
    have hfile : ∀ f ∈ exDetData.files, f.trainIds = [10, 11, 12] := by decide
    obtain ⟨shape, hs1, hs2⟩ := (exDet_keys (Or.inl rfl)).2.2.2
    obtain ⟨a, a', ha, ha', k0, k1, k2, k3, k4⟩ := copy_detector_succeeds (libs := ⟨true, true⟩) (arg := .by_ true (.list [7]))
      (ps := ⟨true, .list [7]⟩) (num := id) (key := ch! "image.data") hc he exDet_init_named hd (by decide) exDet_valid.1
      (fun x hx => ⟨hF _ (Or.inl rfl) x hx, hF _ (Or.inl rfl) x hx, hF _ (Or.inr (Or.inl rfl)) x hx⟩) exDet_hasImages.2
      (fun x hx => runsValid_of_valid (exDet_valid.2.1 x hx)) exDet_valid.2.2 ⟨ch! "data", rfl⟩ rfl (by simp)
      (by
        intro x hx f hf hh t ht _ _
        rw [hfile f hf]
        exact ht)
      (by
        intro x hx
        rcases exDet_sources hx with rfl | rfl
        · exact ⟨_, List.mem_cons_self, Or.inr (List.mem_singleton.2 rfl), 10, by decide, by decide⟩
        · exact ⟨_, List.mem_cons_of_mem _ List.mem_cons_self, Or.inr (List.mem_singleton.2 rfl), 10, by decide, by decide⟩)
      (by
        intro x hx t k k' p v v' h1 h2
        rcases exDet_sources hx with rfl | rfl <;>
          (have := (exDet_frame h1).2; have := (exDet_frame h2).2; omega)) hs2 hs1
    rw [exDet_array.1] at ha
    obtain rfl := DetResult.pulses.inj (Except.ok.inj ha)
    exact ⟨d, hd, h1, h2, a', ha', k0, k1, k2, k3, by rw [k4]; decide, by rw [k4]; decide⟩

end KD

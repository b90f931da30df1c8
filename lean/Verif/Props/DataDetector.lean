/-
C139: detector data does not depend on how it is spread over files.
-/
import Verif.Props.DetRuns
import Verif.Props.DetCopy
import Verif.Props.DataNarrow
import Verif.Props.DetFileOrder

set_option linter.unusedSimpArgs false

namespace KD
open Spec

variable {V : Type}

/-- The frames of a train, in terms of the entries which the collection holds. -/
theorem frameOf_holds {num : V → Nat} {c : DC V} {s nm : Str} (hc : NoConflict c.files) (h1 : IndexedIn c true s (ch! "image." ++ nm))
    (h2 : IndexedIn c true s (ch! "image.pulseId")) {t k p : Nat} {v : V} :
    FrameOf num c s (ch! "image." ++ nm) t k p v ↔ ∃ es ps, HoldsEntries c true s (ch! "image." ++ nm) t es ∧
      HoldsEntries c true s (ch! "image.pulseId") t ps ∧ es[k]? = some v ∧ ∃ x, ps[k]? = some x ∧ num x = p := by
  constructor
  · rintro ⟨f, hf, hh, hfr⟩
    have htf := frameIn_mem hfr
    rw [frameIn_entries (h1 f hf hh) (h2 f hf hh)] at hfr
    have hold : ∀ key, HoldsEntries c true s key t (fileEntries f true s key t) := fun key =>
      ⟨fun g hg hhg htg => by rw [same_file hc hg hf hhg hh htg htf], fun hn => absurd ⟨f, hf, hh, htf⟩ hn⟩
    exact ⟨_, _, hold _, hold _, hfr⟩
  · rintro ⟨es, ps, he, hp, hv, hx⟩
    have hcov : Covered c s t := by
      by_contra hn
      rw [he.2 hn] at hv
      simp at hv
    obtain ⟨f, hf, hh, htf⟩ := hcov
    refine ⟨f, hf, hh, (frameIn_entries (h1 f hf hh) (h2 f hf hh)).2 ?_⟩
    rw [he.1 f hf hh htf, hp.1 f hf hh htf]
    exact ⟨hv, hx⟩

theorem data_frameOf {num : V → Nat} {c e : DC V} {s nm : Str} (h : SameData c e) (hc : NoConflict c.files) (he : NoConflict e.files)
    (hF : HasField c true s (ch! "image." ++ nm)) (hF' : HasField c true s (ch! "image.pulseId"))
    (h1 : FramesIndexed c s (ch! "image." ++ nm)) (h2 : FramesIndexed e s (ch! "image." ++ nm)) {t : Nat} (ht : t ∈ c.trainIds) (k p : Nat)
    (v : V) : FrameOf num e s (ch! "image." ++ nm) t k p v ↔ FrameOf num c s (ch! "image." ++ nm) t k p v := by
  obtain ⟨a1, a2⟩ := h1
  obtain ⟨b1, b2⟩ := h2
  rw [image_pulseId] at a2 b2
  rw [frameOf_holds hc a1 a2, frameOf_holds he b1 b2]
  simp only [← h.entries true s _ hF t ht, ← h.entries true s _ hF' t ht]

/-- The number of frames, if there are any, in terms of the entries which the collection holds. -/
theorem frameCount_holds {c : DC V} {s : Str} (hc : NoConflict c.files) {t n : Nat} (hn : 0 < n) :
    FrameCount c s t n ↔ t ∈ c.trainIds ∧ ∃ es, HoldsEntries c true s (ch! "image.data") t es ∧ es.length = n := by
  constructor
  · rintro ⟨ht, f, hf, hh, htf, rfl⟩
    exact ⟨ht, _, ⟨fun g hg hhg htg => by rw [same_file hc hg hf hhg hh htg htf], fun hn => absurd ⟨f, hf, hh, htf⟩ hn⟩, rfl⟩
  · rintro ⟨ht, es, he, rfl⟩
    have hcov : Covered c s t := by
      by_contra h0
      rw [he.2 h0] at hn
      simp at hn
    obtain ⟨f, hf, hh, htf⟩ := hcov
    exact ⟨ht, f, hf, hh, htf, by rw [he.1 f hf hh htf]⟩

theorem data_images {c e : DC V} {s : Str} (h : SameData c e) (hc : NoConflict c.files) (he : NoConflict e.files)
    (hF : HasField c true s (ch! "image.data")) : SameImages c e s := by
  refine ⟨fun t n hn => ?_⟩
  rw [frameCount_holds hc hn, frameCount_holds he hn, ← h.trains]
  refine and_congr_right (fun ht => ?_)
  simp only [h.entries true s _ hF t ht]

theorem data_detectorName {c e : DC V} (h : SameData c e) {kind : Option Str} {n : Str} (hn : findDetectorName kind c = .ok n) :
    findDetectorName kind e = .ok n := by
  unfold findDetectorName at hn ⊢
  have hp : (c.instrumentSources.filterMap (detectorName kind)).dedup.Perm (e.instrumentSources.filterMap (detectorName kind)).dedup :=
    (((List.perm_ext_iff_of_nodup (nodup_instrumentSources c) (nodup_instrumentSources e)).2 h.instrument).filterMap _).dedup
  generalize (c.instrumentSources.filterMap (detectorName kind)).dedup = l at hn hp
  generalize (e.instrumentSources.filterMap (detectorName kind)).dedup = l' at hp
  match l, hn with
  | [x], hn => rw [← List.singleton_perm.1 hp]; exact hn

/-- C139. The detector interface can be made for all collections with the same data or for none, with `min_modules` at least 1; it has
the same modules, trains and number of frames. -/
theorem data_detector {kind : Option Str} {c e : DC V} {name : Option Str} {modules : Option (List Nat)} {min : Int} {d : Det V}
    (h : SameData c e) (hc : NoConflict c.files) (he : NoConflict e.files) (hd : Det.init kind c name modules min = .ok d) (hmin : 1 ≤ min)
    (hp : PlainSources d) (hF : ∀ x ∈ d.sourceToModno, HasField c true x.1 (ch! "image.data"))
    (hi : ∀ x ∈ d.sourceToModno, HasImages c x.1) (hie : ∀ x ∈ d.sourceToModno, HasImages e x.1) :
    ∃ d', Det.init kind e name modules min = .ok d' ∧ d'.name = d.name ∧ (∀ x, x ∈ d'.sourceToModno ↔ x ∈ d.sourceToModno) ∧
      d'.data.trainIds = d.data.trainIds ∧ d'.framesPerTrain = d.framesPerTrain := by
  obtain ⟨g1, g2, g3, g4, x, sers, g5, g6, g7, g8, g9⟩ := init_ok hd
  have hd0 : Det.init kind c (some d.name) modules min = .ok d :=
    init_intro (fun n hn => Option.some.inj hn) (fun hn => by simp at hn) g3 g4 g5 g6 g7 g8 g9
  obtain ⟨d', hd', k1, k2, k3⟩ := images_detector hc he (fun s => (h.instrument s).symm) hd0 hmin hp
    (fun x hx => data_images h hc he (hF x hx)) hi hie
  obtain ⟨i1, i2, i3, i4, y, sers', i5, i6, i7, i8, i9⟩ := init_ok hd'
  have hname : d'.name = d.name := i1 _ rfl
  have hp' : PlainSources d' := fun x hx => hp x ((k1 x).1 hx)
  refine ⟨d', init_intro (fun n hn => ?_) (fun hn => ?_) i3 i4 i5 i6 i7 i8 i9, hname, k1, ?_, k3⟩
  · rw [hname]; exact g1 n hn
  · rw [hname]; exact data_detectorName h (g2 hn)
  · exact eq_of_pairwise_lt (init_data hd' hp').2.1 (init_data hd hp).2.1 k2

/-- C139. Arrays of detector data have the same entries at the same labels, however the data is spread over files. The index of the
files need only be right within each run of consecutive trains of the detector. -/
theorem data_detector_array {kind : Option Str} {c e : DC V} {name : Option Str} {modules : Option (List Nat)} {min : Int} {d d' : Det V}
    {libs : Libs} {num : V → Nat} {key : Str} {arg : PulseArg} {a a' : DetArr V}
    (h : SameData c e) (hc : NoConflict c.files) (he : NoConflict e.files) (hd : Det.init kind c name modules min = .ok d)
    (hd' : Det.init kind e name modules min = .ok d') (hmin : 1 ≤ min) (hp : PlainSources d)
    (hF : ∀ x ∈ d.sourceToModno, HasField c true x.1 (ch! "image.data") ∧ HasField c true x.1 key ∧
      HasField c true x.1 (ch! "image.pulseId"))
    (hi : ∀ x ∈ d.sourceToModno, HasImages c x.1 ∧ HasImages e x.1)
    (hix : ∀ x ∈ d.sourceToModno, FramesIndexed c x.1 key ∧ FramesIndexed e x.1 key)
    (hv : ∀ x ∈ d.sourceToModno, RunsValid c d.data.trainIds x.1 key ∧ RunsValid e d.data.trainIds x.1 key)
    (hmax : ∀ x ∈ d.sourceToModno, PulsesBelowMax num c x.1 key ∧ PulsesBelowMax num e x.1 key)
    (ha : d.getArray libs num key arg = .ok (.pulses a)) (ha' : d'.getArray libs num key arg = .ok (.pulses a')) :
    a'.modules = a.modules ∧ a'.trains = a.trains ∧ a'.pulses = a.pulses ∧ ∀ m t p, a'.cell m t p = a.cell m t p := by
  obtain ⟨d'', hd'', -, hmem, htr, -⟩ := data_detector h hc he hd hmin hp (fun x hx => (hF x hx).1) (fun x hx => (hi x hx).1)
    (fun x hx => (hi x hx).2)
  rw [hd'] at hd''
  obtain rfl := Except.ok.inj hd''
  obtain ⟨hk, -⟩ := getArray_pulses ha
  obtain ⟨nm, rfl⟩ : ∃ nm, key = ch! "image." ++ nm := by
    unfold startsWith at hk
    obtain ⟨t, ht⟩ := List.isPrefixOf_iff_prefix.1 hk
    exact ⟨t, ht.symm⟩
  refine frames_detector_array hd hd' hp (fun x hx => hp x ((hmem x).1 hx)) hmem (fun t => by rw [htr])
    (modulesRight_of_runs hd hp (fun x hx => (hv x hx).1))
    (modulesRight_of_runs hd' (fun x hx => hp x ((hmem x).1 hx)) (fun x hx => htr ▸ (hv x ((hmem x).1 hx)).2)) (fun x hx => (hmax x hx).1) (fun x hx => (hmax x ((hmem x).1 hx)).2) ?_ ha ha'
  intro x hx t k p v ht
  exact data_frameOf h hc he (hF x hx).2.1 (hF x hx).2.2 (hix x hx).1 (hix x hx).2 ((init_data hd hp).2.2.2.1 t ht) k p v

/-- C139. With data in good order in both collections, the interface can be made from both, both give the array, and it is the same. -/
theorem data_detector_succeeds {kind : Option Str} {c e : DC V} {name : Option Str} {modules : Option (List Nat)} {min : Int} {d : Det V}
    {libs : Libs} {num : V → Nat} {key : Str} {arg : PulseArg} {ps : Pulses} {shape : List Nat}
    (h : SameData c e) (hc : NoConflict c.files) (he : NoConflict e.files) (hd : Det.init kind c name modules min = .ok d)
    (hmin : 1 ≤ min) (hp : PlainSources d)
    (hF : ∀ x ∈ d.sourceToModno, HasField c true x.1 (ch! "image.data") ∧ HasField c true x.1 key ∧
      HasField c true x.1 (ch! "image.pulseId"))
    (hk : ∃ rest, key = ch! "image." ++ rest)
    (hps : checkPulses libs arg = .ok ps) (hl : ∀ l, arg = .by_ false (.list l) → l.Pairwise (· < ·) ∧ ∀ i ∈ l, 0 ≤ i)
    (hdim : (entryShape shape).length = 3 ∨ (entryShape shape).length = 2 ∨ (entryShape shape).length = 0)
    (hgood : ∀ b, (b = c ∨ b = e) → ∀ x ∈ d.sourceToModno, HasImages b x.1 ∧ FramesIndexed b x.1 key ∧
      RunsValid b d.data.trainIds x.1 key ∧ PulsesBelowMax num b x.1 key ∧ PulsesDistinct num b x.1 key ∧
      (∀ f ∈ b.files, Holds f x.1 → HasBetween f d.data.trainIds) ∧
      (∃ f ∈ b.files, Holds f x.1 ∧ ∃ t ∈ d.data.trainIds, t ∈ f.trainIds) ∧
      ∀ f ∈ b.files, Holds f x.1 → ∀ ds, f.dataset (ch! "INSTRUMENT") x.1 key = .ok ds → ds.rowShape = shape) :
    ∃ d' a a', Det.init kind e name modules min = .ok d' ∧ d.getArray libs num key arg = .ok (.pulses a) ∧
      d'.getArray libs num key arg = .ok (.pulses a') ∧ a'.rowShape = a.rowShape ∧ a'.modules = a.modules ∧ a'.trains = a.trains ∧
      a'.pulses = a.pulses ∧ ∀ m t p, a'.cell m t p = a.cell m t p := by
  have gc := hgood c (.inl rfl)
  have ge := hgood e (.inr rfl)
  obtain ⟨d', hd', -, hmem, htr, -⟩ := data_detector h hc he hd hmin hp (fun x hx => (hF x hx).1) (fun x hx => (gc x hx).1)
    (fun x hx => (ge x hx).1)
  obtain ⟨a, ha, hra⟩ := get_array_runs_succeeds hd hk hps hl hp (fun x hx => (gc x hx).2.2.1) (fun x hx => (gc x hx).2.2.2.2.2.1)
    (fun x hx => (gc x hx).2.2.2.2.2.2.1) (fun x hx => (gc x hx).2.2.2.2.1) (fun x hx => (gc x hx).2.2.2.2.2.2.2) hdim
  have ge' : ∀ x ∈ d'.sourceToModno, _ := fun x hx => ge x ((hmem x).1 hx)
  rw [← htr] at ge'
  obtain ⟨a', ha', hra'⟩ := get_array_runs_succeeds hd' hk hps hl (fun x hx => hp x ((hmem x).1 hx)) (fun x hx => (ge' x hx).2.2.1)
    (fun x hx => (ge' x hx).2.2.2.2.2.1) (fun x hx => (ge' x hx).2.2.2.2.2.2.1) (fun x hx => (ge' x hx).2.2.2.2.1)
    (fun x hx => (ge' x hx).2.2.2.2.2.2.2) hdim
  obtain ⟨r1, r2, r3, r4⟩ := data_detector_array h hc he hd hd' hmin hp hF (fun x hx => ⟨(gc x hx).1, (ge x hx).1⟩)
    (fun x hx => ⟨(gc x hx).2.1, (ge x hx).2.1⟩) (fun x hx => ⟨(gc x hx).2.2.1, (ge x hx).2.2.1⟩)
    (fun x hx => ⟨(gc x hx).2.2.2.1, (ge x hx).2.2.2.1⟩) ha ha'
  exact ⟨d', a, a', hd', ha, ha', by rw [hra, hra'], r1, r2, r3, r4⟩

/-- C139. The detector interfaces have the same data, if those of each module are all included in the collections, and no module is
without files in the trains of the detector. -/
theorem data_detector_data {kind : Option Str} {c e : DC V} {name : Option Str} {modules : Option (List Nat)} {min : Int} {d d' : Det V}
    (h : SameData c e) (hc : Regular c.files) (he : Regular e.files) (hrc : KeysReadable c) (hre : KeysReadable e)
    (hd : Det.init kind c name modules min = .ok d) (hd' : Det.init kind e name modules min = .ok d') (hmin : 1 ≤ min)
    (hp : PlainSources d) (hF : ∀ x ∈ d.sourceToModno, HasField c true x.1 (ch! "image.data"))
    (hi : ∀ x ∈ d.sourceToModno, HasImages c x.1 ∧ HasImages e x.1)
    (hall : ∀ x ∈ d.sourceToModno, c.selection.get? x.1 = some none ∧ e.selection.get? x.1 = some none)
    (hsrc : ∀ x ∈ d.sourceToModno, x.1 ∈ d.data.allSources ∧ x.1 ∈ d'.data.allSources) : SameData d.data d'.data := by
  obtain ⟨d'', hd'', hname, hmem, htr, -⟩ := data_detector h hc.conflict he.conflict hd hmin hp hF (fun x hx => (hi x hx).1)
    (fun x hx => (hi x hx).2)
  rw [hd'] at hd''
  obtain rfl := Except.ok.inj hd''
  obtain ⟨-, -, g3, g4, x, sers, g5, g6, g7, g8, g9⟩ := init_ok hd
  obtain ⟨-, -, i3, i4, y, sers', i5, i6, i7, i8, i9⟩ := init_ok hd'
  have hstar : ∀ {z : DC V}, (∀ x ∈ d.sourceToModno, z.selection.get? x.1 = some none) →
      ∀ p ∈ d.sourceToModno.map (fun x => (x.1, ch! "*")), p.2 = ch! "*" → ∀ s ∈ z.allSources, globMatch p.1 s = true →
        z.selection.get? s = some none := by
    intro z hz p hpm _ s _ hg
    obtain ⟨x, hx, rfl⟩ := List.mem_map.1 hpm
    rw [globMatch_literal x.1 s (hp x hx)] at hg
    subst hg
    exact hz x hx
  rcases data_select h hc.conflict he.conflict hrc hre (hstar (fun x hx => (hall x hx).1)) (hstar (fun x hx => (hall x hx).2)) with
    ⟨e1, -⟩ | ⟨x', y', e1, e2, e3⟩
  · rw [g5] at e1; simp at e1
  · rw [g5] at e1
    obtain rfl := Except.ok.inj e1
    have hperm : List.Perm d.sourceToModno d'.sourceToModno :=
      (List.perm_ext_iff_of_nodup (List.Nodup.of_map _ g4) (List.Nodup.of_map _ i4)).2 (fun x => (hmem x).symm)
    obtain ⟨y'', e4, e5⟩ := select_globs_perm (hperm.map (fun x : Str × Nat => (x.1, ch! "*"))) e2
    rw [i5] at e4
    obtain rfl := Except.ok.inj e4
    have hyk := (select_allSources_files e2 he.keys he.lists).1
    have hxy : SameData x y := sameData_trans e3 (order_sameData e5 hyk)
    have hrx : Regular x.files := by
      obtain ⟨S, -, h2, rfl⟩ := select_ok_iff.1 g5
      exact hc.sublist List.filter_sublist
    have hry : Regular y.files := by
      obtain ⟨S, -, h2, rfl⟩ := select_ok_iff.1 i5
      exact he.sublist List.filter_sublist
    have hsub : ∀ s, s ∈ x.allSources → s ∈ d.sourceToModno.map Prod.fst := by
      intro s hs
      obtain ⟨S, h1, h2, rfl⟩ := select_ok_iff.1 g5
      obtain ⟨-, p, hpm, hg, -⟩ := (expandGlobs_sources h1 s).1 (mem_allSources.1 hs).1
      obtain ⟨x, hx, rfl⟩ := List.mem_map.1 hpm
      rw [globMatch_literal x.1 s (hp x hx)] at hg
      exact List.mem_map.2 ⟨x, hx, hg.symm⟩
    have htw : trainsWithModules sers' min = trainsWithModules sers min := by
      obtain ⟨x', sersx, u1, -, -, -, u5⟩ := init_counts g3 hc.conflict hp (fun x hx => (hi x hx).1)
      rw [g5] at u1
      obtain rfl := Except.ok.inj u1
      obtain ⟨y', sersy, w1, -, -, -, w5⟩ := init_counts i3 he.conflict (fun x hx => hp x ((hmem x).1 hx))
        (fun x hx => (hi x ((hmem x).1 hx)).2)
      rw [i5] at w1
      obtain rfl := Except.ok.inj w1
      have hfst : ∀ s, s ∈ d'.sourceToModno.map Prod.fst ↔ s ∈ d.sourceToModno.map Prod.fst := by
        intro s
        simp only [List.mem_map, hmem]
      have hsame : ∀ s ∈ d.sourceToModno.map Prod.fst, SameImages c e s := by
        intro s hs
        obtain ⟨x, hx, rfl⟩ := List.mem_map.1 hs
        exact data_images h hc.conflict he.conflict (hF x hx)
      have some_ : ∀ {z : DC V} {l : List Str} {t : Nat}, EnoughModules z l min t → ∃ s n, s ∈ l ∧ FrameCount z s t n := by
        rintro z l t ⟨present, h4, h5, h6⟩
        cases present with
        | nil => simp at h6; omega
        | cons s0 l =>
          obtain ⟨h7, n0, h8, h9⟩ := h5 s0 (by simp)
          exact ⟨s0, n0, h7, h9⟩
      refine eq_of_pairwise_lt ((sortedSet_pairwise _).filter _) ((sortedSet_pairwise _).filter _) (fun t => ?_)
      rw [mem_trainsWithModules min t i6 w5 (identify_nodup i3), mem_trainsWithModules min t g6 u5 (identify_nodup g3)]
      rw [and_iff_right_of_imp some_, and_iff_right_of_imp some_]
      exact enough_same hfst hsame
    rw [htw] at i9
    rcases data_select_trains hxy hrx hry (.idList ((trainsWithModules sers min).map Int.ofNat)) with ⟨z, f1, -⟩ | ⟨p, q, f1, f2, f3, f4⟩
    · rw [g9] at f1; simp at f1
    · rw [g9] at f1
      rw [i9] at f2
      obtain rfl := Except.ok.inj f1
      obtain rfl := Except.ok.inj f2
      refine f4 (fun s hs => ?_)
      obtain ⟨z, hz, rfl⟩ := List.mem_map.1 (hsub s hs)
      obtain ⟨a1, a2⟩ := hsrc z hz
      have b1 := ((trains_allSources hrx.conflict g9 z.1).1 a1).2
      have b2 := ((trains_allSources hry.conflict i9 z.1).1 a2).2
      rw [htr] at b2
      exact ⟨fun _ => b2, fun _ => b1⟩

/-- C139. Iterating over the trains of a detector gives the same trains, and for each key of `image.` the same frames with the same pulse
IDs, however the data is spread over files. -/
theorem data_detector_iterate {kind : Option Str} {c e : DC V} {name : Option Str} {modules : Option (List Nat)} {min : Int} {d d' : Det V}
    {libs : Libs} {num : V → Nat} {arg : PulseArg} {items items' : List (Nat × Dict Str (IterVal V))}
    (h : SameData c e) (hc : Regular c.files) (he : Regular e.files) (hrc : KeysReadable c) (hre : KeysReadable e)
    (hd : Det.init kind c name modules min = .ok d) (hd' : Det.init kind e name modules min = .ok d') (hmin : 1 ≤ min)
    (hp : PlainSources d) (hF : ∀ x ∈ d.sourceToModno, HasField c true x.1 (ch! "image.data"))
    (hi : ∀ x ∈ d.sourceToModno, HasImages c x.1 ∧ HasImages e x.1)
    (hall : ∀ x ∈ d.sourceToModno, c.selection.get? x.1 = some none ∧ e.selection.get? x.1 = some none)
    (hsrc : ∀ x ∈ d.sourceToModno, x.1 ∈ d.data.allSources ∧ x.1 ∈ d'.data.allSources)
    (hg : GoodData d.data) (hg' : GoodData d'.data) (hk : ∀ s ∈ d.data.allSources, ∃ k, Available d.data s k)
    (hit : d.trains libs num arg = .ok items) (hit' : d'.trains libs num arg = .ok items') :
    items'.map Prod.fst = items.map Prod.fst ∧
    ∀ nm, (∀ x ∈ d.sourceToModno, FramesIndexed c x.1 (ch! "image." ++ nm) ∧ FramesIndexed e x.1 (ch! "image." ++ nm)) →
      (∀ x ∈ d.sourceToModno, PulsesBelowMax num c x.1 (ch! "image." ++ nm) ∧ PulsesBelowMax num e x.1 (ch! "image." ++ nm)) →
      (∀ x ∈ d.sourceToModno, HasField c true x.1 (ch! "image.pulseId")) →
      ∀ t x x' a a', (t, x) ∈ items → (t, x') ∈ items' → x.get? (ch! "image." ++ nm) = some (.pulses a) →
        x'.get? (ch! "image." ++ nm) = some (.pulses a') →
        ∀ s m, (s, m) ∈ d.sourceToModno → Available d.data s (ch! "image." ++ nm) → HasField c true s (ch! "image." ++ nm) →
          ∀ t' p, a'.cell m t' p = a.cell m t' p := by
  have hsd := data_detector_data h hc he hrc hre hd hd' hmin hp hF hi hall hsrc
  obtain ⟨d'', hd'', hname, hmem, htr, -⟩ := data_detector h hc.conflict he.conflict hd hmin hp hF (fun x hx => (hi x hx).1)
    (fun x hx => (hi x hx).2)
  rw [hd'] at hd''
  obtain rfl := Except.ok.inj hd''
  have hp' : PlainSources d' := fun x hx => hp x ((hmem x).1 hx)
  obtain ⟨n1, -, -, n4, -⟩ := init_data hd hp
  obtain ⟨n1', -⟩ := init_data hd' hp'
  obtain ⟨o1, o2⟩ := iterate_trains hd hit hp hg
  obtain ⟨p1, p2⟩ := iterate_trains hd' hit' hp' hg'
  have hk' : ∀ s ∈ d'.data.allSources, ∃ k, Available d'.data s k := by
    intro s hs
    obtain ⟨k, hk⟩ := hk s ((sameData_all hsd s).2 hs)
    exact ⟨k, (hsd.keys s k).1 hk⟩
  refine ⟨eq_of_pairwise_lt p1 o1 (fun t => ?_), ?_⟩
  · rw [o2, p2, htr]
    refine and_congr_right (fun ht => ⟨data_complete_imp (sameData_symm hsd) n1' hg' hk' (htr ▸ ht), data_complete_imp hsd n1 hg hk ht⟩)
  · intro nm hv hmax hpu t x x' a a' ht ht' hx hx' s m hsm hav hFk t' p
    obtain ⟨ks, hks, hk1⟩ := hav.2
    obtain ⟨ks', hks', hk1'⟩ := ((hsd.keys s _).1 hav).2
    have htd : t ∈ c.trainIds := n4 t ((o2 t).1 (List.mem_map.2 ⟨_, ht, rfl⟩)).1
    have hfr : ∀ k p v, FrameOf num e s (ch! "image." ++ nm) t k p v ↔ FrameOf num c s (ch! "image." ++ nm) t k p v :=
      data_frameOf h hc.conflict he.conflict hFk (hpu _ hsm) (hv _ hsm).1 (hv _ hsm).2 htd
    apply Option.ext
    intro v
    rw [iterate_exact hd hit hp (fun x hx => (hv x hx).1) (fun x hx => (hmax x hx).1) ht hx hsm hks hk1,
      iterate_exact hd' hit' hp' (fun x hx => (hv x ((hmem x).1 hx)).2) (fun x hx => (hmax x ((hmem x).1 hx)).2) ht' hx' ((hmem _).2 hsm)
        hks' hk1']
    unfold TakenIter
    simp only [hfr]

/-! ### A case -/

/-- The data of the example in other files: each module has two, and none for train 12 where module 3 has no frames. -/
def exDetSplit : DC Nat where
  files := [exModule '3' [10] [0] [2] [5, 7] [100, 101], exModule '0' [10] [0] [2] [5, 7] [200, 201],
    exModule '3' [11] [0] [2] [5, 7] [110, 111], exModule '0' [11, 12] [0, 2] [2, 2] [5, 7, 5, 7] [210, 211, 220, 221]]
  selection := [(exSource '3', none), (exSource '0', none)]
  trainIds := [10, 11, 12]
  ctxCloses := true

/-- What the files of the example hold. -/
def exHeld (s k : Str) (t : Nat) : List Nat :=
  (exDetData.files.filter (fun f => decide (s ∈ f.instrumentSources ∧ t ∈ f.trainIds))).flatMap (fun f => fileEntries f true s k t)

set_option maxRecDepth 50000 in
set_option synthInstance.maxSize 2000 in
theorem exSplit_sameData : SameData exDetData exDetSplit := by
  have h1 : exDetSplit.allSources = exDetData.allSources := by decide
  have h2 : ∀ s ∈ exDetData.allSources, exDetSplit.keysForSource s = exDetData.keysForSource s := by decide
  have h3 : exDetSplit.instrumentSources = exDetData.instrumentSources := by decide
  have h4 : exDetSplit.controlSources = exDetData.controlSources := by decide
  refine ⟨rfl, fun s => by rw [h4], fun s => by rw [h3], fun s k => ?_, fun b s k hF t ht es => ?_⟩
  · unfold Available
    rw [h1]
    exact and_congr_right (fun hs => by rw [h2 s hs])
  · obtain ⟨rfl, ⟨x, hx, rfl⟩, hk⟩ := exDet_field hF
    have hk' : k ∈ [ch! "image.data", ch! "image.pulseId", ch! "image.cellId"] := by simpa using hk
    have key : ∀ c ∈ [exDetData, exDetSplit], ∀ x ∈ exDet.sourceToModno, ∀ k ∈ [ch! "image.data", ch! "image.pulseId", ch! "image.cellId"],
        ∀ t ∈ [10, 11, 12], HoldsEntries c true x.1 k t (exHeld x.1 k t) := by
      intro c hc x hx k hk t ht
      refine ⟨?_, fun hn => ?_⟩
      · unfold Holds
        revert c x k t
        decide +kernel
      · by_contra hne
        apply hn
        clear hn
        unfold Covered Holds
        revert c x k t
        decide +kernel
    have a1 := key exDetData (by simp) x hx k hk' t ht
    have a2 := key exDetSplit (by simp) x hx k hk' t ht
    constructor
    · intro h; rw [holdsEntries_unique h a1]; exact a2
    · intro h; rw [holdsEntries_unique h a2]; exact a1

set_option maxRecDepth 50000 in
theorem exSplit_init : Det.init (some (ch! "_AGIPD1M")) exDetSplit none none 1 = .ok
    { exDet with data := { exDetSplit with ctxCloses := false } } := by decide +kernel

theorem exSplit_valid {k : Str} (hk : k = ch! "image.data" ∨ k = ch! "image.pulseId" ∨ k = ch! "image.cellId") :
    ∀ x ∈ exDet.sourceToModno, ValidIn exDetSplit true x.1 k := by
  have pick : ∀ {f : FileAccess Nat} {s : Str}, (ValidField f true s (ch! "image.data") ∧ ValidField f true s (ch! "image.pulseId") ∧
      ValidField f true s (ch! "image.cellId")) → ValidField f true s k := by
    rintro f s ⟨h1, h2, h3⟩
    rcases hk with rfl | rfl | rfl <;> assumption
  intro x hx f hf hh
  simp only [exDetSplit, List.mem_cons, List.not_mem_nil, or_false] at hf
  simp only [exDet, List.mem_cons, List.not_mem_nil, or_false] at hx
  rcases hf with rfl | rfl | rfl | rfl <;> rcases hx with rfl | rfl <;>
    first
      | (exfalso; revert hh; rintro (h | h) <;> revert h <;> decide)
      | exact pick (exModule_valid (by decide) (by decide) (by decide) rfl rfl (contiguous_one _ _)
          (inBounds_cons (by decide) (inBounds_nil _)) rfl (by decide) (by decide))
      | exact pick (exModule_valid (by decide) (by decide) (by decide) rfl rfl (contiguous_cons rfl (contiguous_one _ _))
          (inBounds_cons (by decide) (inBounds_cons (by decide) (inBounds_nil _))) rfl (by decide) (by decide))

theorem exSplit_noConflict : NoConflict exDetSplit.files := by
  rw [← hasConflicts_false]
  decide

theorem exSplit_hasImages : ∀ x ∈ exDet.sourceToModno, HasImages exDetSplit x.1 := by
  intro x hx
  refine ⟨validIn_indexed (exSplit_valid (.inl rfl) x hx), ?_⟩
  intro f hf hh
  simp only [exDetSplit, List.mem_cons, List.not_mem_nil, or_false] at hf
  simp only [exDet, List.mem_cons, List.not_mem_nil, or_false] at hx
  rcases hf with rfl | rfl | rfl | rfl <;> rcases hx with rfl | rfl <;>
    first
      | exact ⟨⟨_, rfl, by decide⟩, by decide⟩
      | (exfalso; revert hh; rintro (h | h) <;> revert h <;> decide)

theorem exSplit_field {x : Str × Nat} (hx : x ∈ exDet.sourceToModno) {k : Str}
    (hk : k = ch! "image.data" ∨ k = ch! "image.pulseId" ∨ k = ch! "image.cellId") : HasField exDetData true x.1 k := by
  have h1 : ∀ x ∈ exDet.sourceToModno, x.1 ∈ exDetData.instrumentSources ∧
      exDetData.keysForSource x.1 = .ok [ch! "image.pulseId", ch! "image.data", ch! "image.cellId"] := by decide
  obtain ⟨h2, h3⟩ := h1 x hx
  exact ⟨h2, _, h3, by rcases hk with rfl | rfl | rfl <;> decide⟩

theorem exSplit_frames : ∀ x ∈ exDet.sourceToModno, FramesValid exDetSplit x.1 (ch! "image.data") := fun x hx =>
  ⟨exSplit_valid (.inl rfl) x hx, exSplit_valid (.inr (.inl rfl)) x hx⟩

theorem exSplit_indexed : ∀ x ∈ exDet.sourceToModno,
    FramesIndexed exDetData x.1 (ch! "image.data") ∧ FramesIndexed exDetSplit x.1 (ch! "image.data") := fun x hx =>
  ⟨framesIndexed_of_valid (exDet_valid.2.1 x hx), framesIndexed_of_valid (exSplit_frames x hx)⟩

theorem exSplit_below : ∀ x ∈ exDet.sourceToModno, PulsesBelowMax id exDetSplit x.1 (ch! "image.data") := by
  intro x hx t k p v hfr
  have ht : t ∈ exDetData.trainIds := by
    obtain ⟨f, hf, -, hin⟩ := hfr
    have : ∀ f ∈ exDetSplit.files, ∀ t ∈ f.trainIds, t ∈ exDetData.trainIds := by decide
    exact this f hf t (frameIn_mem hin)
  have e : ch! "image.data" = ch! "image." ++ ch! "data" := rfl
  rw [e] at hfr
  refine exDet_valid.2.2 x hx t k p v ?_
  exact (data_frameOf exSplit_sameData exDet_hasImages.1 exSplit_noConflict (exSplit_field hx (.inl rfl)) (exSplit_field hx (.inr (.inl rfl)))
    (exSplit_indexed x hx).1 (exSplit_indexed x hx).2 ht k p v).1 hfr

set_option maxRecDepth 50000 in
/-- A case: the array read from the four files is that read from the two. -/
example : ∃ a', (Det.getArray { exDet with data := { exDetSplit with ctxCloses := false } } ⟨true, true⟩ id (ch! "image.data")
      (.by_ true (.list [7]))) = .ok (.pulses a') ∧
    a'.modules = [0, 3] ∧ a'.trains = [10, 11, 12] ∧ a'.pulses = [7] ∧ a'.cell 3 11 7 = some 111 ∧ a'.cell 3 12 7 = none := by
  have h' : ∃ a', (Det.getArray { exDet with data := { exDetSplit with ctxCloses := false } } ⟨true, true⟩ id (ch! "image.data")
      (.by_ true (.list [7]))) = .ok (.pulses a') := ⟨_, rfl⟩
  obtain ⟨a', ha'⟩ := h'
  obtain ⟨h1, h2, h3, h4⟩ := data_detector_array exSplit_sameData exDet_hasImages.1 exSplit_noConflict exDet_init exSplit_init (by decide)
    exDet_valid.1 (fun x hx => ⟨exSplit_field hx (.inl rfl), exSplit_field hx (.inl rfl), exSplit_field hx (.inr (.inl rfl))⟩)
    (fun x hx => ⟨exDet_hasImages.2 x hx, exSplit_hasImages x hx⟩)
    exSplit_indexed (fun x hx => ⟨runsValid_of_valid (exDet_valid.2.1 x hx), runsValid_of_valid (exSplit_frames x hx)⟩)
    (fun x hx => ⟨exDet_valid.2.2 x hx, exSplit_below x hx⟩) exDet_array.1 ha'
  exact ⟨a', ha', h1, h2, h3, by rw [h4]; decide, by rw [h4]; decide⟩

theorem exSplit_back {x : Str × Nat} (hx : x ∈ exDet.sourceToModno) {t k p v : Nat}
    (hfr : FrameOf id exDetSplit x.1 (ch! "image.data") t k p v) : FrameOf id exDetData x.1 (ch! "image.data") t k p v := by
  have ht : t ∈ exDetData.trainIds := by
    obtain ⟨f, hf, -, hin⟩ := hfr
    have : ∀ f ∈ exDetSplit.files, ∀ t ∈ f.trainIds, t ∈ exDetData.trainIds := by decide
    exact this f hf t (frameIn_mem hin)
  have e : ch! "image.data" = ch! "image." ++ ch! "data" := rfl
  rw [e] at hfr
  exact (data_frameOf exSplit_sameData exDet_hasImages.1 exSplit_noConflict (exSplit_field hx (.inl rfl)) (exSplit_field hx (.inr (.inl rfl)))
    (exSplit_indexed x hx).1 (exSplit_indexed x hx).2 ht k p v).1 hfr

/-- The conditions of `data_detector_succeeds` are met by the two collections, for any list of pulse IDs. -/
example (libs : Libs) (l : List Nat) (ps : Pulses) (hps : checkPulses libs (.by_ true (.list (l.map Int.ofNat))) = .ok ps) :
    ∃ d' a a', Det.init (some (ch! "_AGIPD1M")) exDetSplit none none 1 = .ok d' ∧
      exDet.getArray libs id (ch! "image.data") (.by_ true (.list (l.map Int.ofNat))) = .ok (.pulses a) ∧
      d'.getArray libs id (ch! "image.data") (.by_ true (.list (l.map Int.ofNat))) = .ok (.pulses a') ∧ a'.rowShape = a.rowShape ∧
      a'.modules = a.modules ∧ a'.trains = a.trains ∧ a'.pulses = a.pulses ∧ ∀ m t p, a'.cell m t p = a.cell m t p := by
  refine data_detector_succeeds (shape := [1, 2, 2]) exSplit_sameData exDet_hasImages.1 exSplit_noConflict exDet_init (by decide) exDet_valid.1
    (fun x hx => ⟨exSplit_field hx (.inl rfl), exSplit_field hx (.inl rfl), exSplit_field hx (.inr (.inl rfl))⟩) ⟨ch! "data", rfl⟩ hps
    (by intro l' h; simp at h) (.inr (.inl rfl)) ?_
  have dist : ∀ x ∈ exDet.sourceToModno, PulsesDistinct id exDetData x.1 (ch! "image.data") := by
    intro x hx t k k' p v v' h1 h2
    rcases exDet_sources hx with rfl | rfl <;>
      (have := (exDet_frame h1).2; have := (exDet_frame h2).2; omega)
  have shapes : ∀ b, (b = exDetData ∨ b = exDetSplit) → ∀ x ∈ exDet.sourceToModno, ∀ f ∈ b.files, Holds f x.1 →
      ∀ ds, f.dataset (ch! "INSTRUMENT") x.1 (ch! "image.data") = .ok ds → ds.rowShape = [1, 2, 2] := by
    rintro b (rfl | rfl) x hx f hf hh ds hds
    · simp only [exDetData, List.mem_cons, List.not_mem_nil, or_false] at hf
      rcases exDet_sources hx with rfl | rfl <;> rcases hf with rfl | rfl <;>
        first
          | (exfalso; revert hh; rintro (h | h) <;> revert h <;> decide)
          | (rw [(exModule_data (Or.inr rfl)).1] at hds; obtain rfl := Except.ok.inj hds; rfl)
          | (rw [(exModule_data (Or.inl rfl)).1] at hds; obtain rfl := Except.ok.inj hds; rfl)
    · simp only [exDetSplit, List.mem_cons, List.not_mem_nil, or_false] at hf
      rcases exDet_sources hx with rfl | rfl <;> rcases hf with rfl | rfl | rfl | rfl <;>
        first
          | (exfalso; revert hh; rintro (h | h) <;> revert h <;> decide)
          | (rw [(exModule_data (Or.inr rfl)).1] at hds; obtain rfl := Except.ok.inj hds; rfl)
          | (rw [(exModule_data (Or.inl rfl)).1] at hds; obtain rfl := Except.ok.inj hds; rfl)
  have some_ : ∀ b, (b = exDetData ∨ b = exDetSplit) → ∀ x ∈ exDet.sourceToModno, ∃ f ∈ b.files, Holds f x.1 ∧
      ∃ t ∈ exDet.data.trainIds, t ∈ f.trainIds := by
    rintro b (rfl | rfl) x hx <;> rcases exDet_sources hx with rfl | rfl
    · exact ⟨_, List.mem_cons_self, Or.inr (List.mem_singleton.2 rfl), 10, by decide, by decide⟩
    · exact ⟨_, List.mem_cons_of_mem _ List.mem_cons_self, Or.inr (List.mem_singleton.2 rfl), 10, by decide, by decide⟩
    · exact ⟨_, List.mem_cons_self, Or.inr (List.mem_singleton.2 rfl), 10, by decide, by decide⟩
    · exact ⟨_, List.mem_cons_of_mem _ List.mem_cons_self, Or.inr (List.mem_singleton.2 rfl), 10, by decide, by decide⟩
  have between : ∀ b, (b = exDetData ∨ b = exDetSplit) → ∀ f ∈ b.files, HasBetween f exDet.data.trainIds := by
    rintro b (rfl | rfl) f hf <;> simp only [exDetData, exDetSplit, List.mem_cons, List.not_mem_nil, or_false] at hf
    · rcases hf with rfl | rfl <;> (unfold HasBetween; decide)
    · rcases hf with rfl | rfl | rfl | rfl <;> (unfold HasBetween; decide)
  rintro b hb x hx
  refine ⟨?_, ?_, ?_, ?_, ?_, fun f hf _ => between b hb f hf, some_ b hb x hx, shapes b hb x hx⟩
  · rcases hb with rfl | rfl
    · exact exDet_hasImages.2 x hx
    · exact exSplit_hasImages x hx
  · rcases hb with rfl | rfl
    · exact (exSplit_indexed x hx).1
    · exact (exSplit_indexed x hx).2
  · rcases hb with rfl | rfl
    · exact runsValid_of_valid (exDet_valid.2.1 x hx)
    · exact runsValid_of_valid (exSplit_frames x hx)
  · rcases hb with rfl | rfl
    · exact exDet_valid.2.2 x hx
    · exact exSplit_below x hx
  · rcases hb with rfl | rfl
    · exact dist x hx
    · exact fun t k k' p v v' h1 h2 => dist x hx t k k' p v v' (exSplit_back hx h1) (exSplit_back hx h2)

/-- A list of files of the example in which each source has its keys, in each file. -/
theorem exModules_regular {files : List (FileAccess Nat)} (hc : NoConflict files)
    (h : ∀ f ∈ files, f.controlSources = [] ∧ ∀ s ∈ f.instrumentSources,
      f.getKeys s = .ok [ch! "image.pulseId", ch! "image.data", ch! "image.cellId"]) : Regular files := by
  have hin : ∀ f ∈ files, ∀ s, Holds f s → s ∈ f.instrumentSources := by
    rintro f hf s (hs | hs)
    · rw [(h f hf).1] at hs; simp at hs
    · exact hs
  refine ⟨hc, ?_, ?_, ?_⟩
  · intro f hf g hg s hs hs' key
    unfold FileHasKey
    rw [(h f hf).2 s (hin f hf s hs), (h g hg).2 s (hin g hg s hs')]
  · exact fun f hf s hs => ⟨_, (h f hf).2 s (hin f hf s hs)⟩
  · intro f hf g hg s hs hs'
    rw [(h f hf).1, (h g hg).1]
    exact ⟨Iff.rfl, fun _ => hin g hg s hs', fun _ => hin f hf s hs⟩

/-- The detector object for the example in other files. -/
def exSplitDet : Det Nat := { exDet with data := { exDetSplit with ctxCloses := false } }

theorem exSplit_good : GoodData exSplitDet.data := by
  have e : exSplitDet.data.instrumentSources = [exSource '3', exSource '0'] := by decide
  have ec : exSplitDet.data.controlSources = [] := by decide
  have ea : exSplitDet.data.allSources = [exSource '3', exSource '0'] := by decide
  have hks : ∀ s ∈ [exSource '3', exSource '0'],
      exSplitDet.data.keysForSource s = .ok [ch! "image.pulseId", ch! "image.data", ch! "image.cellId"] := by decide
  refine ⟨fun s hs => ⟨_, hks s (ea ▸ hs)⟩, ?_, fun s hs => by rw [ec] at hs; simp at hs⟩
  intro s hs k hk f hf hh
  have hs' := hs
  rw [e] at hs'
  obtain ⟨x, hx, rfl⟩ : ∃ x ∈ exDet.sourceToModno, x.1 = s := by
    rcases List.mem_cons.1 hs' with rfl | hs
    · exact ⟨_, List.mem_cons_self, rfl⟩
    · rw [List.mem_singleton] at hs
      exact ⟨(exSource '0', 0), by simp [exDet], hs.symm⟩
  have hk' := (available_keys hk.1 (hks x.1 hs')).2 hk
  simp only [List.mem_cons, List.not_mem_nil, or_false] at hk'
  exact (exSplit_valid (by tauto) x hx f hf hh).indexed

set_option maxRecDepth 50000 in
/-- A case: iterating over the four files and over the two gives trains 10 and 11 (in train 12 module 3 has no frames), with the same
frames. -/
example : ∃ items items', exDet.trains ⟨true, true⟩ id (.by_ true (.list [7])) = .ok items ∧
    exSplitDet.trains ⟨true, true⟩ id (.by_ true (.list [7])) = .ok items' ∧ items'.map Prod.fst = items.map Prod.fst ∧
    items.map Prod.fst = [10, 11] ∧ ∀ x x' a a', (11, x) ∈ items → (11, x') ∈ items' → x.get? (ch! "image.data") = some (.pulses a) →
      x'.get? (ch! "image.data") = some (.pulses a') → ∀ p, a'.cell 3 11 p = a.cell 3 11 p := by
  have h1 : ∃ items, exDet.trains ⟨true, true⟩ id (.by_ true (.list [7])) = .ok items ∧ items.map Prod.fst = [10, 11] := ⟨_, rfl, rfl⟩
  have h2 : ∃ items, exSplitDet.trains ⟨true, true⟩ id (.by_ true (.list [7])) = .ok items := ⟨_, rfl⟩
  obtain ⟨items, h1, h3⟩ := h1
  obtain ⟨items', h2⟩ := h2
  have hks : ∀ s ∈ exDet.data.allSources, s ∈ exDet.sourceToModno.map Prod.fst ∧
      exDet.data.keysForSource s = .ok [ch! "image.pulseId", ch! "image.data", ch! "image.cellId"] := by decide
  have hdk : ∀ s ∈ exDet.data.allSources, ∀ k ∈ [ch! "image.pulseId", ch! "image.data", ch! "image.cellId"], Available exDet.data s k :=
    fun s hs k hk => (available_keys hs (hks s hs).2).1 hk
  obtain ⟨g1, g2⟩ := data_detector_iterate exSplit_sameData (exModules_regular exDet_hasImages.1 (by decide))
    (exModules_regular exSplit_noConflict (by decide)) exDet_good.keys exSplit_good.keys exDet_init exSplit_init (by decide) exDet_valid.1
    (fun x hx => exSplit_field hx (.inl rfl)) (fun x hx => ⟨exDet_hasImages.2 x hx, exSplit_hasImages x hx⟩) (by decide) (by decide)
    exDet_good exSplit_good (fun s hs => ⟨_, hdk s hs (ch! "image.data") (by simp)⟩) h1 h2
  refine ⟨items, items', h1, h2, g1, h3, fun x x' a a' hx hx' ha ha' p => ?_⟩
  refine g2 (ch! "data") exSplit_indexed
    (fun x hx => ⟨exDet_valid.2.2 x hx, exSplit_below x hx⟩) (fun x hx => exSplit_field hx (.inr (.inl rfl))) 11 x x' a a' hx hx' ha ha'
    (exSource '3') 3 (by simp [exDet]) (hdk _ (by decide) _ (by simp)) (exSplit_field (x := (exSource '3', 3)) (by simp [exDet]) (.inl rfl)) 11 p

set_option maxRecDepth 50000 in
/-- C139 is wrong with `min_modules=0`: a train in which the module has a file but no frames is kept, one in which it has no file is not. -/
theorem data_detector_zero_wrong : SameData exDetData exDetSplit ∧
    (Det.init (some (ch! "_AGIPD1M")) exDetData none (some [3]) 0).map (fun d => d.data.trainIds) = .ok [10, 11, 12] ∧
    (Det.init (some (ch! "_AGIPD1M")) exDetSplit none (some [3]) 0).map (fun d => d.data.trainIds) = .ok [10, 11] :=
  ⟨exSplit_sameData, by decide +kernel, by decide +kernel⟩

end KD

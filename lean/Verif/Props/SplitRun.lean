/-
C136: a run written in parts.
-/
import Verif.Spec.SplitRun
import Verif.Props.Copies
import Verif.Props.History
import Verif.Props.Commute
import Verif.Props.CopyTrains

namespace KD

open KD.Spec

variable {V W : Type}

/-- The parts of a run, with the files written. -/
structure Parts (c : DC V) (parts : List (DC V × FileAccess V)) : Prop where
  narrowed : ∀ x ∈ parts, Narrowed c x.1
  copyable : ∀ x ∈ parts, Copyable x.1
  written : ∀ x ∈ parts, WrittenTo x.1 x.2
  apart : parts.Pairwise (fun x y => PartsApart x.1 y.1)
  agree : ∀ x ∈ parts, ∀ y ∈ parts, PartsAgree x.1 y.1

theorem writtenTo_full {p : DC V} {f : FileAccess V} (hc : Copyable p) (h : WrittenTo p f) : FullCopy p f := by
  obtain ⟨kind, h, name, h1, h2, h3⟩ := h
  obtain ⟨f', h4, h5⟩ := written_full hc h1 h2 name
  rw [h3] at h4
  obtain rfl := Except.ok.inj h4
  exact h5

/-- The collection of the files. -/
def DC.ofFiles (fs : List (FileAccess V)) : DC V :=
  ⟨fs, defaultSelection fs, sortedSet (fs.flatMap (fun f => f.trainIds)), true⟩

theorem parts_open {c : DC V} {parts : List (DC V × FileAccess V)} (hp : Parts c parts) (hne : parts ≠ []) :
    NoConflict (parts.map Prod.snd) ∧
    DC.fromPaths (parts.map (fun x => (.ok x.2 : R (FileAccess V)))) = .ok (DC.ofFiles (parts.map Prod.snd)) := by
  have hfull : ∀ x ∈ parts, FullCopy x.1 x.2 := fun x hx => writtenTo_full (hp.copyable x hx) (hp.written x hx)
  have hnc : NoConflict (parts.map Prod.snd) := by
    unfold NoConflict
    rw [List.pairwise_map]
    refine hp.apart.imp_of_mem (fun {x y} hx hy h s t h1 h2 h3 => ?_)
    rw [(hfull y hy).trains]
    rw [(hfull x hx).trains] at h3
    exact h s ((full_holds (hfull x hx) s).1 h1) ((full_holds (hfull y hy) s).1 h2) t h3
  refine ⟨hnc, ?_⟩
  have e : ∀ l : List (DC V × FileAccess V), (l.map (fun x => (.ok x.2 : R (FileAccess V)))).filterMap Except.toOption = l.map Prod.snd := by
    intro l
    induction l with
    | nil => rfl
    | cons x l ih => rw [List.map_cons, List.filterMap_cons, ih]; rfl
  unfold DC.fromPaths
  dsimp only
  rw [e, if_neg (by cases parts with
    | nil => exact absurd rfl hne
    | cons x l => simp)]
  exact make_ok_iff.2 ⟨hnc, rfl⟩

theorem ofFiles_control {fs : List (FileAccess V)} {s : Str} : s ∈ (DC.ofFiles fs).controlSources ↔ ∃ f ∈ fs, s ∈ f.controlSources := by
  rw [mem_controlSources]
  unfold DC.ofFiles
  dsimp only
  rw [(defaultSelection_get? fs s).2]
  exact ⟨fun h => h.2, fun ⟨f, h1, h2⟩ => ⟨⟨f, h1, .inl h2⟩, f, h1, h2⟩⟩

theorem ofFiles_instrument {fs : List (FileAccess V)} {s : Str} :
    s ∈ (DC.ofFiles fs).instrumentSources ↔ ∃ f ∈ fs, s ∈ f.instrumentSources := by
  rw [mem_instrumentSources]
  unfold DC.ofFiles
  dsimp only
  rw [(defaultSelection_get? fs s).2]
  exact ⟨fun h => h.2, fun ⟨f, h1, h2⟩ => ⟨⟨f, h1, .inr h2⟩, f, h1, h2⟩⟩

theorem ofFiles_available {fs : List (FileAccess V)} {s k : Str} :
    Available (DC.ofFiles fs) s k ↔ ∃ f, ((DC.ofFiles fs).sourceIndex s).head? = some f ∧ FileHasKey f s k := by
  rw [available_iff]
  constructor
  · rintro ⟨v, hv, hcase⟩
    have hs : s ∈ (defaultSelection fs).keys := Dict.mem_keys_iff.2 ⟨v, hv⟩
    have hv' := (defaultSelection_get? fs s).1 ((defaultSelection_get? fs s).2.1 hs)
    have hv2 : (defaultSelection fs).get? s = some v := hv
    rw [hv2] at hv'
    obtain rfl := Option.some.inj hv'
    rcases hcase with ⟨-, h⟩ | ⟨ks, h, -⟩
    · exact h
    · simp at h
  · rintro ⟨f, h1, h2⟩
    obtain ⟨h3, h4⟩ := mem_sourceIndex.1 (List.mem_of_mem_head? h1)
    exact ⟨none, (defaultSelection_get? fs s).1 ⟨f, h3, h4⟩, .inl ⟨rfl, f, h1, h2⟩⟩

theorem full_key {c : DC V} {f : FileAccess V} (hf : FullCopy c f) {s k : Str} (hs : s ∈ c.allSources) : FileHasKey f s k ↔ Available c s k := by
  obtain ⟨ks, h1, h2⟩ := hf.keys s hs
  rw [← h2]
  constructor
  · rintro ⟨ks', h3, h4⟩
    rw [h1] at h3
    obtain rfl := Except.ok.inj h3
    exact h4
  · exact fun h => ⟨ks, h1, h⟩

theorem agree_available {p q : DC V} (h : PartsAgree p q) {s k : Str} (hs : s ∈ q.allSources) (hk : Available p s k) : Available q s k := by
  rcases field_of_available hk with hF | hF
  · exact field_available ((h s hk.1 hs _ _).1 hF)
  · exact field_available ((h s hk.1 hs _ _).1 hF)

/-- C136. Parts of a run written to files, the files opened together: the trains, sources and keys are those of the parts, and
`get_array` gives for each train what the run gives. -/
theorem split_run {c : DC V} {parts : List (DC V × FileAccess V)} (hn : DifferentNames c) (hc : NoConflict c.files)
    (hp : Parts c parts) (hne : parts ≠ []) :
    ∃ d, DC.fromPaths (parts.map (fun x => (.ok x.2 : R (FileAccess V)))) = .ok d ∧
      d.trainIds.Pairwise (· < ·) ∧ (∀ t, t ∈ d.trainIds ↔ ∃ x ∈ parts, t ∈ x.1.trainIds) ∧
      (∀ s, s ∈ d.controlSources ↔ ∃ x ∈ parts, s ∈ x.1.controlSources) ∧
      (∀ s, s ∈ d.instrumentSources ↔ ∃ x ∈ parts, s ∈ x.1.instrumentSources) ∧
      (∀ s k, Available d s k ↔ ∃ x ∈ parts, Available x.1 s k) ∧
      ∀ (instr : Bool) (s k : Str) (roi : V → W) (a : LArr W), FollowsIn c c.trainIds instr s k → c.getArray s k roi = .ok a →
        (∃ x ∈ parts, HasField x.1 instr s k) →
        ∃ b, d.getArray s k roi = .ok b ∧ AllLabelled b ∧ (∀ t, InParts parts s t → labelled b t = labelled a t) ∧
          (∀ t, ¬ InParts parts s t → labelled b t = []) ∧ b.rowShape = a.rowShape ∧ b.dtype = a.dtype ∧
          ((∀ x ∈ parts, ∀ y ∈ parts, x ≠ y → PartsInOrder s x.1 y.1) → (b.coords.getD []).Pairwise (· ≤ ·)) := by
  have hfull : ∀ x ∈ parts, FullCopy x.1 x.2 := fun x hx => writtenTo_full (hp.copyable x hx) (hp.written x hx)
  obtain ⟨hnc, hopen⟩ := parts_open hp hne
  have hav : ∀ s k, Available (DC.ofFiles (parts.map Prod.snd)) s k ↔ ∃ x ∈ parts, Available x.1 s k := by
    intro s k
    rw [ofFiles_available]
    constructor
    · rintro ⟨f, h1, h2⟩
      obtain ⟨h3, h4⟩ := mem_sourceIndex.1 (List.mem_of_mem_head? h1)
      obtain ⟨x, hx, rfl⟩ := List.mem_map.1 h3
      exact ⟨x, hx, (full_key (hfull x hx) ((full_holds (hfull x hx) s).1 h4)).1 h2⟩
    · rintro ⟨x, hx, hk⟩
      obtain ⟨g, hg⟩ : ∃ g, ((DC.ofFiles (parts.map Prod.snd)).sourceIndex s).head? = some g := by
        cases hl : (DC.ofFiles (parts.map Prod.snd)).sourceIndex s with
        | nil =>
          have : x.2 ∈ (DC.ofFiles (parts.map Prod.snd)).sourceIndex s :=
            mem_sourceIndex.2 ⟨List.mem_map.2 ⟨x, hx, rfl⟩, (full_holds (hfull x hx) s).2 hk.1⟩
          rw [hl] at this; simp at this
        | cons g l => exact ⟨g, rfl⟩
      obtain ⟨h3, h4⟩ := mem_sourceIndex.1 (List.mem_of_mem_head? hg)
      obtain ⟨y, hy, rfl⟩ := List.mem_map.1 h3
      have hs := (full_holds (hfull y hy) s).1 h4
      exact ⟨_, hg, (full_key (hfull y hy) hs).2 (agree_available (hp.agree x hx y hy) hs hk)⟩
  refine ⟨_, hopen, sortedSet_pairwise _, fun t => ?_, fun s => ?_, fun s => ?_, hav, ?_⟩
  · unfold DC.ofFiles
    dsimp only
    rw [mem_sortedSet, List.mem_flatMap]
    simp only [List.mem_map]
    constructor
    · rintro ⟨_, ⟨x, hx, rfl⟩, ht⟩; exact ⟨x, hx, by rw [← (hfull x hx).trains]; exact ht⟩
    · rintro ⟨x, hx, ht⟩; exact ⟨_, ⟨x, hx, rfl⟩, by rw [(hfull x hx).trains]; exact ht⟩
  · rw [ofFiles_control]
    simp only [List.mem_map]
    constructor
    · rintro ⟨_, ⟨x, hx, rfl⟩, h⟩; exact ⟨x, hx, ((hfull x hx).control s).1 h⟩
    · rintro ⟨x, hx, h⟩; exact ⟨_, ⟨x, hx, rfl⟩, ((hfull x hx).control s).2 h⟩
  · rw [ofFiles_instrument]
    simp only [List.mem_map]
    constructor
    · rintro ⟨_, ⟨x, hx, rfl⟩, h⟩; exact ⟨x, hx, ((hfull x hx).instrument s).1 h⟩
    · rintro ⟨x, hx, h⟩; exact ⟨_, ⟨x, hx, rfl⟩, ((hfull x hx).instrument s).2 h⟩
  · rintro instr s k roi a hv ha ⟨x0, hx0, hF0⟩
    have hF : ∀ x ∈ parts, s ∈ x.1.allSources → HasField x.1 instr s k :=
      fun x hx hs => (hp.agree x0 hx0 x hx s (field_available hF0).1 hs instr k).1 hF0
    have hvd : FollowsIn (DC.ofFiles (parts.map Prod.snd)) (DC.ofFiles (parts.map Prod.snd)).trainIds instr s k := by
      refine validIn_follows (fun f hf hh => ?_) _
      obtain ⟨x, hx, rfl⟩ := List.mem_map.1 hf
      exact ((hfull x hx).fields instr s k (hF x hx ((full_holds (hfull x hx) s).1 hh))).1
    -- the type in all files is that of the array of the run
    have hnm : ¬ Mismatch c instr s k := by
      intro hm
      have := (get_array_mismatch_gaps roi hc hv (checkField_ok.1 (getArray_ok ha).1)).1 hm
      rw [ha] at this
      simp at this
    obtain ⟨a', ha', hat⟩ := (get_array_mismatch_gaps roi hc hv (checkField_ok.1 (getArray_ok ha).1)).2 hnm
    rw [ha] at ha'
    obtain rfl := Except.ok.inj ha'
    have htype : ∀ x ∈ parts, s ∈ x.1.allSources → ∃ e, x.2.dataset (sectionName instr) s k = .ok e ∧ e.rowShape = a.rowShape ∧ e.dtype = a.dtype := by
      intro x hx hs
      obtain ⟨e, h1, h2⟩ := ((hfull x hx).fields instr s k (hF x hx hs)).2.1
      obtain ⟨-, g, hg, hh⟩ := mem_allSources.1 hs
      obtain ⟨e', h3, h4, h5⟩ := h2 g hg hh
      obtain ⟨e'', h6, h7, h8⟩ := hat g ((derived_parts hn hc (hp.narrowed x hx).derived).1 g hg) hh
      rw [h3] at h6
      obtain rfl := Except.ok.inj h6
      exact ⟨e, h1, h4.trans h7.symm, h5.trans h8.symm⟩
    have hnmd : ¬ Mismatch (DC.ofFiles (parts.map Prod.snd)) instr s k := by
      rintro ⟨f, hf, g, hg, hfs, hgs, u, v, hu, hv, hne⟩
      obtain ⟨x, hx, rfl⟩ := List.mem_map.1 hf
      obtain ⟨y, hy, rfl⟩ := List.mem_map.1 hg
      obtain ⟨e, h1, h2, h3⟩ := htype x hx ((full_holds (hfull x hx) s).1 hfs)
      obtain ⟨e', h1', h2', h3'⟩ := htype y hy ((full_holds (hfull y hy) s).1 hgs)
      rw [hu] at h1
      rw [hv] at h1'
      obtain rfl := Except.ok.inj h1
      obtain rfl := Except.ok.inj h1'
      rcases hne with h | h
      · exact h (h2.trans h2'.symm)
      · exact h (h3.trans h3'.symm)
    have havd := (hav s k).2 ⟨x0, hx0, field_available hF0⟩
    obtain ⟨b, hb, hbt⟩ := (get_array_mismatch_gaps roi hnc hvd havd).2 hnmd
    obtain ⟨l1, l2, l3⟩ := get_array_follows hc hv ha
    obtain ⟨m1, m2, m3⟩ := get_array_follows (c := DC.ofFiles (parts.map Prod.snd)) hnc hvd hb
    obtain ⟨e0, d1, d2, d3⟩ := htype x0 hx0 (field_available hF0).1
    obtain ⟨e1, d4, d5, d6⟩ := hbt x0.2 (List.mem_map.2 ⟨x0, hx0, rfl⟩) ((full_holds (hfull x0 hx0) s).2 (field_available hF0).1)
    rw [d1] at d4
    obtain rfl := Except.ok.inj d4
    refine ⟨b, hb, m1, ?_, ?_, d5.trans d2, d6.trans d3, fun hord => ?_⟩
    · rintro t ⟨x, hx, hs, ht⟩
      have htd : t ∈ (DC.ofFiles (parts.map Prod.snd)).trainIds := by
        unfold DC.ofFiles
        dsimp only
        rw [mem_sortedSet, List.mem_flatMap]
        exact ⟨x.2, List.mem_map.2 ⟨x, hx, rfl⟩, by rw [(hfull x hx).trains]; exact ht⟩
      rw [m2 t htd x.2 (List.mem_map.2 ⟨x, hx, rfl⟩) ((full_holds (hfull x hx) s).2 hs) (by rw [(hfull x hx).trains]; exact ht)]
      obtain ⟨e1, e2⟩ := ((hfull x hx).fields instr s k (hF x hx hs)).2.2 t ht
      have hsub := derived_parts hn hc (hp.narrowed x hx).derived
      by_cases hcov : Covered x.1 s t
      · obtain ⟨g, hg, hh, htg⟩ := hcov
        rw [e1 g hg hh htg, l2 t (hsub.2.1 t ht) g (hsub.1 g hg) hh htg]
      · rw [e2 hcov]
        rw [narrowed_covered hn hc (hp.narrowed x hx) hs ht] at hcov
        exact (l3 t (Or.inr fun g hg hh htg => hcov ⟨g, hg, hh, htg⟩)).symm
    · intro t ht
      refine m3 t (Or.inr fun f hf hh htf => ?_)
      obtain ⟨x, hx, rfl⟩ := List.mem_map.1 hf
      exact ht ⟨x, hx, (full_holds (hfull x hx) s).1 hh, by rw [← (hfull x hx).trains]; exact htf⟩
    · refine (get_array_order_gaps hnc hvd hb).2 (inOrder_of_ranges _ _ ?_)
      intro f hf g hg hfs hgs hfg
      obtain ⟨x, hx, rfl⟩ := List.mem_map.1 hf
      obtain ⟨y, hy, rfl⟩ := List.mem_map.1 hg
      rw [(hfull x hx).trains, (hfull y hy).trains]
      exact hord x hx y hy (fun h => hfg (by rw [h])) ((full_holds (hfull x hx) s).1 hfs) ((full_holds (hfull y hy) s).1 hgs)

/-- Labelled arrays with the same entries for each train, all in order, are equal. -/
theorem array_ext {a b : LArr W} (ha : AllLabelled a) (hb : AllLabelled b) (oa : (a.coords.getD []).Pairwise (· ≤ ·))
    (ob : (b.coords.getD []).Pairwise (· ≤ ·)) (h : ∀ t, labelled b t = labelled a t) (hne : a.rows ≠ [])
    (h1 : b.rowShape = a.rowShape) (h2 : b.dtype = a.dtype) : b = a := by
  obtain ⟨hr, hco⟩ := labelled_ext hb ha ob oa h
  have hcs : ∀ z : LArr W, AllLabelled z → z.rows ≠ [] → z.coords = some (z.coords.getD []) := by
    intro z hz hzr
    cases hzc : z.coords with
    | some _ => rfl
    | none =>
      unfold AllLabelled at hz
      rw [hzc] at hz
      exact absurd (List.length_eq_zero_iff.1 hz.symm) hzr
  have hcoords : b.coords = a.coords := by
    rw [hcs b hb (by rw [hr]; exact hne), hcs a ha hne, hco]
  obtain ⟨r, co, sh, dt⟩ := a
  obtain ⟨r', co', sh', dt'⟩ := b
  simp only at hr hcoords h1 h2 ⊢
  subst hr hcoords h1 h2
  rfl

/-- C136. If the parts have all the trains of a source, each part a range of trains, the array read from the files written is the
array of the run. -/
theorem split_run_array {c d : DC V} {parts : List (DC V × FileAccess V)} (hn : DifferentNames c) (hc : NoConflict c.files)
    (hp : Parts c parts) (hd : DC.fromPaths (parts.map (fun x => (.ok x.2 : R (FileAccess V)))) = .ok d)
    {instr : Bool} {s k : Str} {roi : V → W} {a : LArr W} (hv : FollowsIn c c.trainIds instr s k) (ha : c.getArray s k roi = .ok a)
    (hF : ∃ x ∈ parts, HasField x.1 instr s k) (hall : ∀ t ∈ c.trainIds, Covered c s t → InParts parts s t)
    (hord : ∀ x ∈ parts, ∀ y ∈ parts, x ≠ y → PartsInOrder s x.1 y.1) (hio : TrainsInOrder c instr s k) (hdata : HasData c instr s k) :
    d.getArray s k roi = .ok a := by
  have hne : parts ≠ [] := by
    rintro rfl
    obtain ⟨x, hx, -⟩ := hF
    simp at hx
  obtain ⟨d', hd', -, -, -, -, -, h⟩ := split_run (W := W) hn hc hp hne
  rw [hd] at hd'
  obtain rfl := Except.ok.inj hd'
  obtain ⟨b, hb, h1, h2, h3, h4, h5, h6⟩ := h instr s k roi a hv ha hF
  rw [hb]
  obtain ⟨l1, l2, l3⟩ := get_array_follows hc hv ha
  congr 1
  refine array_ext l1 h1 ((get_array_order_gaps hc hv ha).2 hio) (h6 hord) (fun t => ?_) ?_ h4 h5
  · by_cases ht : InParts parts s t
    · exact h2 t ht
    · rw [h3 t ht]
      refine (l3 t ?_).symm
      by_cases htc : t ∈ c.trainIds
      · exact .inr (fun f hf hh htf => ht (hall t htc ⟨f, hf, hh, htf⟩))
      · exact .inl htc
  · obtain ⟨t, ht, g, hg, hh, hx⟩ := hdata
    intro h0
    have htg : t ∈ g.trainIds := by
      by_contra h
      exact hx (fileEntries_notMem h)
    have := l2 t ht g hg hh htg
    unfold labelled at this
    rw [h0] at this
    simp at this
    exact hx this

/-! ### Parts selected by trains -/

theorem hasField_iff {c : DC V} {b : Bool} {s k : Str} :
    HasField c b s k ↔ (if b then s ∈ c.instrumentSources else s ∈ c.controlSources) ∧ Available c s k := by
  constructor
  · intro h; exact ⟨h.1, field_available h⟩
  · rintro ⟨h1, h2⟩; exact ⟨h1, h2.2⟩

/-- A part selected by trains has the same kind and keys for its sources. -/
theorem train_part_fields {c p : DC V} {tr : TrainRange} (hr : Regular c.files) (h : c.selectTrains tr = .ok p) {s : Str}
    (hs : s ∈ p.allSources) (b : Bool) (k : Str) : HasField p b s k ↔ HasField c b s k := by
  obtain ⟨hsub, -, -⟩ := select_trains_files hr.conflict h
  have hsel : p.selection = c.selection := by
    obtain ⟨new, -, rfl⟩ := (selectTrains_ok_iff hr.conflict).1 h; rfl
  obtain ⟨hsk, g, hg, hgs⟩ := mem_allSources.1 hs
  rw [hasField_iff, hasField_iff]
  have hcat : (if b = true then s ∈ p.instrumentSources else s ∈ p.controlSources) ↔
      (if b = true then s ∈ c.instrumentSources else s ∈ c.controlSources) := by
    have key := fun f hf hfs => hr.category f hf g (hsub g hg) s hfs hgs
    rw [hsel] at hsk
    cases b
    · simp only [Bool.false_eq_true, if_false, mem_controlSources, hsel]
      constructor
      · rintro ⟨h1, f, hf, hfs⟩; exact ⟨h1, f, hsub f hf, hfs⟩
      · rintro ⟨h1, f, hf, hfs⟩; exact ⟨h1, g, hg, (key f hf (.inl hfs)).1.1 hfs⟩
    · simp only [if_true, mem_instrumentSources, hsel]
      constructor
      · rintro ⟨h1, f, hf, hfs⟩; exact ⟨h1, f, hsub f hf, hfs⟩
      · rintro ⟨h1, f, hf, hfs⟩; exact ⟨h1, g, hg, (key f hf (.inr hfs)).2.1 hfs⟩
  rw [hcat]
  refine and_congr_right (fun _ => ?_)
  rw [available_iff, available_iff, hsel]
  have hhead : ∀ x : DC V, (∀ f ∈ x.files, f ∈ c.files) → (∃ f ∈ x.files, Holds f s) →
      ((∃ f, (x.sourceIndex s).head? = some f ∧ FileHasKey f s k) ↔ FileHasKey g s k) := by
    rintro x hx ⟨f, hf, hfs⟩
    constructor
    · rintro ⟨f, h1, h2⟩
      obtain ⟨h3, h4⟩ := mem_sourceIndex.1 (List.mem_of_mem_head? h1)
      exact (hr.keys f (hx f h3) g (hsub g hg) s h4 hgs k).1 h2
    · intro h2
      cases hl : x.sourceIndex s with
      | nil => have := mem_sourceIndex.2 ⟨hf, hfs⟩; rw [hl] at this; simp at this
      | cons f' l =>
        obtain ⟨h3, h4⟩ := mem_sourceIndex.1 (show f' ∈ x.sourceIndex s by rw [hl]; simp)
        exact ⟨f', rfl, (hr.keys f' (hx f' h3) g (hsub g hg) s h4 hgs k).2 h2⟩
  rw [hhead p hsub ⟨g, hg, hgs⟩, hhead c (fun _ h => h) ⟨g, hsub g hg, hgs⟩]
  have e : (∃ f ∈ p.files, Holds f s) ↔ ∃ f ∈ c.files, Holds f s :=
    ⟨fun ⟨f, h1, h2⟩ => ⟨f, hsub f h1, h2⟩, fun _ => ⟨g, hg, hgs⟩⟩
  simp only [e]

/-- C136. Parts of a run selected by trains can be written, if each has data for each of its fields; they agree on the keys of
sources, and have nothing in common if they have no common trains. -/
theorem train_part_fits {c p : DC V} {tr : TrainRange} (hc : Copyable c) (ha : NamesApart c) (hr : Regular c.files) (ho : FilesInOrder c)
    (hone : ∀ s k, HasField c false s k → ∀ t ∈ c.trainIds, OneEntry c false s k t) (h : c.selectTrains tr = .ok p)
    (hord : p.trainIds.Pairwise (· < ·)) (hv : ∀ b s k, HasField p b s k → FollowsIn p p.trainIds b s k)
    (hdata : ∀ b s k, HasField p b s k → HasData p b s k) :
    Narrowed c p ∧ Copyable p ∧ (∀ kind, ∃ file, p.writeAs kind = .ok file) ∧
      ∀ q tr', c.selectTrains tr' = .ok q → PartsAgree p q ∧ ((∀ t ∈ p.trainIds, t ∉ q.trainIds) → PartsApart p q) := by
  obtain ⟨hsub, hkeep, htr⟩ := select_trains_files hr.conflict h
  have hsel : p.selection = c.selection := by
    obtain ⟨new, -, rfl⟩ := (selectTrains_ok_iff hr.conflict).1 h; rfl
  have hall : ∀ s ∈ p.allSources, s ∈ c.allSources := by
    intro s hs
    obtain ⟨h1, g, hg, hgs⟩ := mem_allSources.1 hs
    exact mem_allSources.2 ⟨hsel ▸ h1, g, hsub g hg, hgs⟩
  have hctl : ∀ s ∈ p.controlSources, s ∈ c.controlSources := by
    intro s hs
    obtain ⟨h1, g, hg, hgs⟩ := mem_controlSources.1 hs
    exact mem_controlSources.2 ⟨hsel ▸ h1, g, hsub g hg, hgs⟩
  have hins : ∀ s ∈ p.instrumentSources, s ∈ c.instrumentSources := by
    intro s hs
    obtain ⟨h1, g, hg, hgs⟩ := mem_instrumentSources.1 hs
    exact mem_instrumentSources.2 ⟨hsel ▸ h1, g, hsub g hg, hgs⟩
  have hfld : ∀ {b s k}, HasField p b s k → HasField c b s k :=
    fun hF => (train_part_fields hr h (field_available hF).1 _ _).1 hF
  have hcp : Copyable p := {
    writable := {
      noConflict := by obtain ⟨new, -, rfl⟩ := (selectTrains_ok_iff hr.conflict).1 h; exact hr.conflict.sublist List.filter_sublist
      trains := hord
      nonzero := fun h0 => hc.writable.nonzero (htr 0 h0)
      named := {
        control := fun s hs => hc.writable.named.control s (hctl s hs)
        instrument := fun s hs => hc.writable.named.instrument s (hins s hs)
        keys := fun b s k hF => hc.writable.named.keys b s k (hfld hF)
        apart := fun b s k s' k' hF hF' => hc.writable.named.apart b s k s' k' (hfld hF) (hfld hF') }
      valid := hv
      inOrder := fun b s k _ => inOrder_of_ranges b k (fun f hf g hg => ho s f (hsub f hf) g (hsub g hg)) }
    keys := by
      intro s hs
      obtain ⟨k, hk⟩ := hc.keys s (hall s hs)
      rcases field_of_available hk with hF | hF
      · exact ⟨k, field_available ((train_part_fields hr h hs _ _).2 hF)⟩
      · exact ⟨k, field_available ((train_part_fields hr h hs _ _).2 hF)⟩
    same := by
      rintro b s k hF ⟨f, hf, g, hg, hm⟩
      exact hc.same b s k (hfld hF) ⟨f, hsub f hf, g, hsub g hg, hm⟩
    data := hdata }
  have hap : NamesApart p :=
    ⟨fun b s q q' hF hF' => ha.keys b s q q' (hfld hF) (hfld hF'), fun s hs => ha.trainId s (hall s hs),
      fun s hs s' hs' => ha.index s (hctl s hs) s' (hins s' hs')⟩
  refine ⟨.selectTrains .same h, hcp, writeAs_succeeds hcp hap (fun s k hF t ht => ?_), fun q tr' hq => ⟨?_, ?_⟩⟩
  · obtain ⟨g, hg, hh, v, hv⟩ := hone s k (hfld hF) t (htr t ht)
    have htg : t ∈ g.trainIds := by
      by_contra hx
      rw [fileEntries_notMem hx] at hv
      simp at hv
    exact ⟨g, (hkeep g hg).2 ⟨t, ht, htg⟩, hh, v, hv⟩
  · intro s h1 h2 b k
    rw [train_part_fields hr h h1, train_part_fields hr hq h2]
  · intro hd s _ _ t ht
    exact hd t ht

/-! ### Examples -/

/-- A run whose data is in order although its files are not: the file with train 5 has nothing for train 2. -/
def exGap : DC Nat where
  files := [exInst (ch! "f") [2, 5] [0, 0] [0, 1] [50], exInst (ch! "g") [1, 4] [0, 1] [1, 1] [10, 40]]
  selection := [(ch! "D:o", none)]
  trainIds := [1, 2, 4, 5]
  ctxCloses := true

/-- C136. Why parts of a run need separate ranges of trains in its files: all the data is in order, but without train 1 it is not. -/
theorem part_out_of_order_wrong :
    exGap.getArray (ch! "D:o") (ch! "data.y") id = .ok ⟨[10, 40, 50], some [1, 4, 5], [], 0⟩ ∧
    (exGap.selectTrains (.idList [2, 4, 5])).bind (fun p => p.getArray (ch! "D:o") (ch! "data.y") id) =
      .ok ⟨[50, 40], some [5, 4], [], 0⟩ := by decide

theorem exWrite_inOrder : FilesInOrder exWrite := by
  intro s f hf g hg hfs hgs hne
  have hnd : ∀ f ∈ exWrite.files, ∀ g ∈ exWrite.files, f.controlSources ++ f.instrumentSources = g.controlSources ++ g.instrumentSources → f ≠ g →
      (∀ t ∈ f.trainIds, ∀ u ∈ g.trainIds, t < u) ∨ (∀ t ∈ f.trainIds, ∀ u ∈ g.trainIds, u < t) := by decide
  refine hnd f hf g hg ?_ hne
  have hone : ∀ f ∈ exWrite.files, f.controlSources ++ f.instrumentSources = [ch! "D:o"] ∨ f.controlSources ++ f.instrumentSources = [ch! "C"] := by
    decide
  have key : ∀ f ∈ exWrite.files, Holds f s → f.controlSources ++ f.instrumentSources = [s] := by
    intro f hf hfs
    have hm : s ∈ f.controlSources ++ f.instrumentSources := List.mem_append.2 hfs
    rcases hone f hf with h | h <;> rw [h] at hm ⊢ <;> rw [List.mem_singleton.1 hm]
  rw [key f hf hfs, key g hg hgs]

theorem exWrite_part_follows {p : DC Nat} {tr : TrainRange} (h : exWrite.selectTrains tr = .ok p) (b : Bool) (s k : Str)
    (hF : HasField p b s k) : FollowsIn p p.trainIds b s k := by
  refine validIn_follows (fun f hf => ?_) _
  exact exWrite_valid ((train_part_fields exWrite_regular h (field_available hF).1 _ _).1 hF) f
    ((select_trains_files exWrite_regular.conflict h).1 f hf)

/-- Trains 1 and 2 of the example copied to one file, train 3 to another one with virtual datasets. -/
theorem exWrite_split : ∃ p q f g, exWrite.selectTrains (.idList [1, 2]) = .ok p ∧ exWrite.selectTrains (.idList [3]) = .ok q ∧
    WrittenTo p f ∧ WrittenTo q g ∧ Parts exWrite [(q, g), (p, f)] ∧ p.trainIds = [1, 2] ∧ q.trainIds = [3] ∧
    p.allSources = [ch! "C", ch! "D:o"] ∧ q.allSources = [ch! "C", ch! "D:o"] := by
  obtain ⟨hc, hone⟩ := exWrite_copyable
  have hr := exWrite_regular
  obtain ⟨p, hp, ep⟩ : ∃ p, exWrite.selectTrains (.idList [1, 2]) = .ok p ∧
      p = ⟨[exInst (ch! "a") [1, 2] [0, 2] [2, 1] [10, 11, 12], exCtrl (ch! "c") [1, 2, 3, 4] [0, 1, 2, 3] [1, 1, 1, 1] [31, 32, 33, 34]],
        [(ch! "D:o", none), (ch! "C", none)], [1, 2], false⟩ := ⟨_, by decide, rfl⟩
  obtain ⟨q, hq, eq⟩ : ∃ p, exWrite.selectTrains (.idList [3]) = .ok p ∧
      p = ⟨[exInst (ch! "b") [3, 4] [0, 1] [1, 0] [20], exCtrl (ch! "c") [1, 2, 3, 4] [0, 1, 2, 3] [1, 1, 1, 1] [31, 32, 33, 34]],
        [(ch! "D:o", none), (ch! "C", none)], [3], false⟩ := ⟨_, by decide, rfl⟩
  have hdp : ∀ b s k, HasField p b s k → HasData p b s k := by
    intro b s k hF
    rcases exWrite_field ((train_part_fields hr hp (field_available hF).1 _ _).1 hF) with ⟨rfl, rfl, rfl⟩ | ⟨rfl, rfl, rfl⟩
    · exact ⟨1, by rw [ep]; decide, exInst (ch! "a") [1, 2] [0, 2] [2, 1] [10, 11, 12], by rw [ep]; simp, .inr (by decide), by decide⟩
    · exact ⟨1, by rw [ep]; decide, exCtrl (ch! "c") [1, 2, 3, 4] [0, 1, 2, 3] [1, 1, 1, 1] [31, 32, 33, 34], by rw [ep]; simp,
        .inl (by decide), by decide⟩
  have hdq : ∀ b s k, HasField q b s k → HasData q b s k := by
    intro b s k hF
    rcases exWrite_field ((train_part_fields hr hq (field_available hF).1 _ _).1 hF) with ⟨rfl, rfl, rfl⟩ | ⟨rfl, rfl, rfl⟩
    · exact ⟨3, by rw [eq]; decide, exInst (ch! "b") [3, 4] [0, 1] [1, 0] [20], by rw [eq]; simp, .inr (by decide), by decide⟩
    · exact ⟨3, by rw [eq]; decide, exCtrl (ch! "c") [1, 2, 3, 4] [0, 1, 2, 3] [1, 1, 1, 1] [31, 32, 33, 34], by rw [eq]; simp,
        .inl (by decide), by decide⟩
  obtain ⟨p1, p2, p3, p4⟩ := train_part_fits hc exWrite_apart hr exWrite_inOrder hone hp (by rw [ep]; decide) (exWrite_part_follows hp) hdp
  obtain ⟨q1, q2, q3, q4⟩ := train_part_fits hc exWrite_apart hr exWrite_inOrder hone hq (by rw [eq]; decide) (exWrite_part_follows hq) hdq
  obtain ⟨hf, wf⟩ := p3 .copy
  obtain ⟨hg, wg⟩ := q3 .virtual
  have sf : ∀ x ∈ hf.datasets, x.2.rows.length < 2 ^ 64 := by
    have : (p.writeAs .copy).map (fun h => h.datasets.all (fun x => x.2.rows.length < 100)) = .ok true := by rw [ep]; decide
    rw [wf] at this
    have := Except.ok.inj this
    intro x hx
    have h100 := of_decide_eq_true (List.all_eq_true.1 this x hx)
    omega
  have sg : ∀ x ∈ hg.datasets, x.2.rows.length < 2 ^ 64 := by
    have : (q.writeAs .virtual).map (fun h => h.datasets.all (fun x => x.2.rows.length < 100)) = .ok true := by rw [eq]; decide
    rw [wg] at this
    have := Except.ok.inj this
    intro x hx
    have h100 := of_decide_eq_true (List.all_eq_true.1 this x hx)
    omega
  obtain ⟨f, of, -⟩ := written_full p2 wf sf (ch! "part1")
  obtain ⟨g, og, -⟩ := written_full q2 wg sg (ch! "part2")
  have tf : WrittenTo p f := ⟨.copy, hf, _, wf, sf, of⟩
  have tg : WrittenTo q g := ⟨.virtual, hg, _, wg, sg, og⟩
  have hpq : ∀ t ∈ q.trainIds, t ∉ p.trainIds := by rw [ep, eq]; decide
  have hparts : Parts exWrite [(q, g), (p, f)] := by
    refine ⟨?_, ?_, ?_, ?_, ?_⟩
    · simp only [List.forall_mem_cons]; exact ⟨q1, p1, by simp⟩
    · simp only [List.forall_mem_cons]; exact ⟨q2, p2, by simp⟩
    · simp only [List.forall_mem_cons]; exact ⟨tg, tf, by simp⟩
    · simp only [List.pairwise_cons, List.mem_singleton, forall_eq]
      exact ⟨(q4 p _ hp).2 hpq, by simp⟩
    · simp only [List.forall_mem_cons]
      exact ⟨⟨(q4 q _ hq).1, (q4 p _ hp).1, by simp⟩, ⟨(p4 q _ hq).1, (p4 p _ hp).1, by simp⟩, by simp⟩
  exact ⟨p, q, f, g, hp, hq, tf, tg, hparts, by rw [ep], by rw [eq], by rw [ep]; decide, by rw [eq]; decide⟩

/-- The two files together give the array of the run. -/
example : ∃ p q f g d a, exWrite.selectTrains (.idList [1, 2]) = .ok p ∧ exWrite.selectTrains (.idList [3]) = .ok q ∧
    WrittenTo p f ∧ WrittenTo q g ∧ DC.fromPaths [.ok g, .ok f] = .ok d ∧ d.trainIds = [1, 2, 3] ∧
    exWrite.getArray (ch! "D:o") (ch! "data.y") id = .ok a ∧ d.getArray (ch! "D:o") (ch! "data.y") id = .ok a := by
  obtain ⟨p, q, f, g, hp, hq, tf, tg, hparts, ep, eq, sp', sq'⟩ := exWrite_split
  obtain ⟨hc, -⟩ := exWrite_copyable
  have hr := exWrite_regular
  have hn : DifferentNames exWrite := by unfold DifferentNames; decide
  obtain ⟨d, hd, hlt, ht, -⟩ := split_run (W := Nat) hn hr.conflict hparts (by simp)
  have hF : HasField exWrite true (ch! "D:o") (ch! "data.y") := ⟨by decide, [ch! "data.y"], by decide, by decide⟩
  have sp : ch! "D:o" ∈ p.allSources := by rw [sp']; decide
  have sq : ch! "D:o" ∈ q.allSources := by rw [sq']; decide
  refine ⟨p, q, f, g, d, ⟨[10, 11, 12, 20], some [1, 1, 2, 3], [], 0⟩, hp, hq, tf, tg, hd, ?_, by decide, ?_⟩
  · refine eq_of_pairwise_lt hlt (by decide) (fun t => ?_)
    rw [ht]
    simp only [List.mem_cons, List.not_mem_nil, or_false, exists_eq_or_imp, exists_eq_left, ep, eq]
    omega
  · refine split_run_array hn hr.conflict hparts hd (exWrite_writable.valid _ _ _ hF) (by decide)
      ⟨(p, f), by simp, (train_part_fields hr hp sp _ _).2 hF⟩ ?_ ?_ (exWrite_writable.inOrder _ _ _ hF) (hc.data _ _ _ hF)
    · intro t ht _
      have : t ∈ p.trainIds ∨ t ∈ q.trainIds := by
        have hm : ∀ t ∈ exWrite.trainIds, t ∈ [1, 2] ∨ t ∈ [3] := by decide
        rw [ep, eq]
        exact hm t ht
      rcases this with h | h
      · exact ⟨(p, f), by simp, sp, h⟩
      · exact ⟨(q, g), by simp, sq, h⟩
    · have h1 : ∀ t ∈ p.trainIds, ∀ u ∈ q.trainIds, t < u := by rw [ep, eq]; decide
      simp only [List.forall_mem_cons]
      exact ⟨⟨fun h => absurd rfl h, fun _ _ _ => .inr (fun t ht u hu => h1 u hu t ht), by simp⟩,
        ⟨fun _ _ _ => .inl h1, fun h => absurd rfl h, by simp⟩, by simp⟩

end KD

/- Property C114: virtual CXI files agree with the arrays of detector data. -/
import Verif.Props.DetRuns
import Verif.Props.Cxi
import Verif.Props.DetSuccess

set_option linter.unusedSimpArgs false

namespace KD
open Spec

variable {V W : Type}

theorem slice_get {rows : List V} {a n k : Nat} {v : V} :
    (slice rows a n)[k]? = some v ↔ k < n ∧ rows[a + k]? = some v := by
  unfold slice
  by_cases hk : k < n
  · rw [List.getElem?_take_of_lt hk, List.getElem?_drop]
    simp [hk]
  · rw [List.getElem?_take_eq_none (by omega)]
    simp [hk]

theorem image_partition (nm : Str) : (partition '.' (ch! "image." ++ nm)).1 = ch! "image" := by simp [partition]

theorem image_pulseId (nm : Str) : pulseIdKey (ch! "image." ++ nm) = ch! "image.pulseId" := by
  unfold pulseIdKey; rw [image_partition]; rfl

/-- A frame with its pulse ID, in terms of the entries of the train. -/
theorem frameIn_entries {num : V → Nat} {f : FileAccess V} {source nm : Str}
    (h1 : IndexedField f true source (ch! "image." ++ nm)) (h2 : IndexedField f true source (ch! "image.pulseId")) {t k p : Nat} {v : V} :
    FrameIn num f source (ch! "image." ++ nm) t k p v ↔
      (fileEntries f true source (ch! "image." ++ nm) t)[k]? = some v ∧
      ∃ x, (fileEntries f true source (ch! "image.pulseId") t)[k]? = some x ∧ num x = p := by
  have hg1 : groupName true (ch! "image." ++ nm) = ch! "image" := by simp only [groupName, if_true, image_partition]
  have hg2 : groupName true (ch! "image.pulseId") = ch! "image" := by decide
  constructor
  · rintro ⟨i, firsts, counts, a, n, ht, hix, ha, hn, hk, ⟨pds, hp1, x, hp2, hp3⟩, ds, hd1, hd2⟩
    rw [image_partition] at hix
    rw [image_pulseId] at hp1
    obtain ⟨fs, cs, d1, a1, n1, e1, e2, e3, e4, -, e5⟩ := fileEntries_at h1 ht
    obtain ⟨fs', cs', d2, a2, n2, g1, g2, g3, g4, -, g5⟩ := fileEntries_at h2 ht
    rw [hg1, hix] at e1
    rw [hg2, hix] at g1
    obtain ⟨rfl, rfl⟩ := Prod.mk.inj (Except.ok.inj e1)
    obtain ⟨rfl, rfl⟩ := Prod.mk.inj (Except.ok.inj g1)
    rw [ha] at e3 g3
    rw [hn] at e4 g4
    obtain rfl := Option.some.inj e3
    obtain rfl := Option.some.inj e4
    obtain rfl := Option.some.inj g3
    obtain rfl := Option.some.inj g4
    obtain rfl := Except.ok.inj (hd1.symm.trans e2)
    obtain rfl := Except.ok.inj (hp1.symm.trans g2)
    rw [e5, g5, slice_get]
    exact ⟨⟨hk, hd2⟩, x, slice_get.2 ⟨hk, hp2⟩, hp3⟩
  · rintro ⟨hv, x, hx, rfl⟩
    have ht : t ∈ f.trainIds := by
      by_contra hn
      rw [fileEntries_notMem hn] at hv
      simp at hv
    obtain ⟨i, hi⟩ := List.mem_iff_getElem?.1 ht
    obtain ⟨fs, cs, d1, a1, n1, e1, e2, e3, e4, -, e5⟩ := fileEntries_at h1 hi
    obtain ⟨fs', cs', d2, a2, n2, g1, g2, g3, g4, -, g5⟩ := fileEntries_at h2 hi
    rw [hg1] at e1
    rw [hg2, e1] at g1
    obtain ⟨rfl, rfl⟩ := Prod.mk.inj (Except.ok.inj g1)
    rw [e3] at g3
    rw [e4] at g4
    obtain rfl := Option.some.inj g3
    obtain rfl := Option.some.inj g4
    rw [e5, slice_get] at hv
    rw [g5, slice_get] at hx
    exact ⟨i, fs, cs, a1, n1, hi, by rw [image_partition]; exact e1, e3, e4, hv.1,
      ⟨d2, by rw [image_pulseId]; exact g2, x, hx.2, rfl⟩, d1, e2, hv.2⟩

/-- C114. For each row of a virtual CXI file and each module, a dataset of the file has the entry which the array of all
frames has for the train ID and the pulse ID of the row: nothing where the array has none. And each frame in the array has its
row in the file. -/
theorem cxi_equals_array {kind : Option Str} {c : DC V} {name : Option Str} {modules : Option (List Nat)} {minModules : Int}
    {d : Det V} (h : Det.init kind c name modules minModules = .ok d) (hc : NoConflict c.files) (hp : PlainSources d)
    (hv : ∀ x ∈ d.sourceToModno, HasImages c x.1) (hm : ModulesInRange d) {num : V → Nat} {moduleShape : List Nat} {x : Cxi V}
    (hx : d.writeVirtualCxi num moduleShape = .ok x) {l : Layout V} (hl : l ∈ x.layouts)
    (hvk : ∀ s ∈ d.sourceToModno, FollowsIn c d.data.trainIds true s.1 (ch! "image." ++ l.name) ∧
      FollowsIn c d.data.trainIds true s.1 (ch! "image.pulseId"))
    (hruns : ∀ s ∈ d.sourceToModno, RunsValid c d.data.trainIds s.1 (ch! "image." ++ l.name))
    (hmax : ∀ s ∈ d.sourceToModno, PulsesBelowMax num c s.1 (ch! "image." ++ l.name))
    (huniq : ∀ s ∈ d.sourceToModno, PulsesDistinct num c s.1 (ch! "image." ++ l.name))
    {libs : Libs} {byId : Bool} {a : DetArr V}
    (ha : d.getArray libs num (ch! "image." ++ l.name) (.by_ byId (.slice .none .none .none)) = .ok (.pulses a))
    {source : Str} {m : Nat} (hs : (source, m) ∈ d.sourceToModno) :
    (∀ (r : Nat) t p, x.trainIds[r]? = some t → x.pulseIds[r]? = some p → l.grid.cell r m = a.cell m t p) ∧
    ∀ t p v, a.cell m t p = some v → ∃ r : Nat, x.trainIds[r]? = some t ∧ x.pulseIds[r]? = some p := by
  have hvp : ∀ s ∈ d.sourceToModno, FollowsIn c d.data.trainIds true s.1 (ch! "image.pulseId") := fun s hs' => (hvk s hs').2
  have hF := (init_good h hc hp hv).frames
  -- a frame, with its pulse ID
  have hfr : ∀ {s : Str × Nat}, s ∈ d.sourceToModno → ∀ {t k p v}, FrameOf num c s.1 (ch! "image." ++ l.name) t k p v ↔
      ∃ f ∈ c.files, Holds f s.1 ∧ (fileEntries f true s.1 (ch! "image." ++ l.name) t)[k]? = some v ∧
        ∃ y, (fileEntries f true s.1 (ch! "image.pulseId") t)[k]? = some y ∧ num y = p := by
    intro s hs' t k p v
    constructor
    · rintro ⟨f, hf, hh, hi⟩
      exact ⟨f, hf, hh, (frameIn_entries ((hvk s hs').1 f hf hh).2.2.1 (hvp s hs' f hf hh).2.2.1).1 hi⟩
    · rintro ⟨f, hf, hh, hi⟩
      exact ⟨f, hf, hh, (frameIn_entries ((hvk s hs').1 f hf hh).2.2.1 (hvp s hs' f hf hh).2.2.1).2 hi⟩
  -- entries of the pulse IDs and of the data come together
  have hlen : ∀ {s : Str × Nat}, s ∈ d.sourceToModno → ∀ {f}, f ∈ c.files → Holds f s.1 → ∀ t,
      (fileEntries f true s.1 (ch! "image." ++ l.name) t).length = (fileEntries f true s.1 (ch! "image.pulseId") t).length := by
    intro s hs' f hf hh t
    exact fileEntries_length ((hvk s hs').1 f hf hh).2.2.1 (hvp s hs' f hf hh).2.2.1 (by rw [image_partition]; decide) t
  have hlow : ∀ s ∈ d.sourceToModno, ∀ t k v, FrameAt c s.1 (ch! "image.pulseId") t k v → num v < 9999 := by
    rintro s hs' t k v ⟨f, hf, hh, hi⟩
    have hk := (List.getElem?_eq_some_iff.1 hi).1
    rw [← hlen hs' hf hh t] at hk
    have := hmax s hs' t k (num v) _ ((hfr hs').2 ⟨f, hf, hh, List.getElem?_eq_getElem hk, v, hi, rfl⟩)
    omega
  obtain ⟨hcells, ⟨hl1, -, hrows⟩, hids, -⟩ := cxi_file h hc hp hv hm hx
  have hcells := (hcells l hl (fun s hs' => (hvk s hs').1)).2.2
  have hcr := (cxi_file h hc hp hv hm hx).1 l hl (fun s hs' => (hvk s hs').1)
  obtain ⟨hil, hpul⟩ := ((cxi_pulse_ids_partial h hc hp hv hm num hvp hlow).1 x.pulseIds).1 hids
  have hexact := fun t p v => get_array_exact_of h ha hp (modulesRight_of_runs h hp hruns) hmax hs t p v
  have hask : ∀ k p, Asked (.by_ byId (.slice .none .none .none)) k p := by
    intro k p
    refine ⟨?_, ?_, ?_⟩
    · exact Int.natCast_nonneg _
    · intro b hb; simp at hb
    · simp only [boundValue]; exact Int.emod_one _
  have hT : ∀ {r t k}, RowOf d.data.trainIds d.framesPerTrain r t k → t ∈ d.data.trainIds := by
    rintro r t k ⟨i, hi, -⟩; exact List.mem_of_getElem? hi
  obtain ⟨-, hsort, -, h3, h4, h5⟩ := init_data h hp
  -- how many frames a train has in a file
  have hnum : ∀ {f}, f ∈ c.files → Holds f source → ∀ {t k : Nat} {v : V}, t ∈ d.data.trainIds →
      (fileEntries f true source (ch! "image." ++ l.name) t)[k]? = some v →
      (fileEntries f true source (ch! "image." ++ l.name) t).length = d.framesPerTrain := by
    intro f hf hh t k v ht hi
    have hft : t ∈ f.trainIds := by
      by_contra hn
      rw [fileEntries_notMem hn] at hi
      simp at hi
    have := init_uniform h hc hp hv hs (image_partition l.name) (followsIn_indexed (hvk _ hs).1) f (h5 f hf _ hs hh ⟨t, ht, hft⟩) hh t ht
    have hk := (List.getElem?_eq_some_iff.1 hi).1
    simp only at this
    omega
  constructor
  · intro r t p hrt hrp
    have hr : r < d.data.trainIds.length * d.framesPerTrain := by
      have := (List.getElem?_eq_some_iff.1 hrt).1
      omega
    have hri : r / d.framesPerTrain < d.data.trainIds.length := (Nat.div_lt_iff_lt_mul hF).2 hr
    have hrow := rowOf_of_div hF (List.getElem?_eq_getElem hri)
    obtain ⟨e1, -⟩ := hrows r _ _ hrow
    rw [hrt] at e1
    obtain rfl := Option.some.inj e1
    generalize hkk : r % d.framesPerTrain = k at hrow
    have hcell : ∀ v, l.grid.cell r m = some v ↔ a.cell m d.data.trainIds[r / d.framesPerTrain] p = some v := by
      intro v
      rw [hexact, hcells r m v (by rw [hcr.1]; exact hr) (by rw [hcr.2.1]; exact hm _ hs)]
      constructor
      · rintro ⟨s', t', k', hs', hr', f, hf, hh, hi⟩
        obtain rfl : s' = source := (Prod.mk.inj (List.inj_on_of_nodup_map (init_ok h).2.2.2.1 hs' hs rfl)).1
        have q1 := rowOf_div hr'
        have q2 := rowOf_div hrow
        rw [q1.1] at q2
        obtain ⟨q3, q4⟩ := q2
        have q3 := Option.some.inj q3
        subst q3
        obtain rfl : k' = k := by rw [q1.2, q4]
        refine ⟨hT hr', k', ?_, hask _ _⟩
        have hk := (List.getElem?_eq_some_iff.1 hi).1
        rw [hlen hs' hf hh] at hk
        refine (hfr hs').2 ⟨f, hf, hh, hi, _, List.getElem?_eq_getElem hk, ?_⟩
        have := (hpul r _ _ hr').2 s' m _ hs' ⟨f, hf, hh, List.getElem?_eq_getElem hk⟩
        rw [hrp] at this
        exact (Option.some.inj this).symm
      · rintro ⟨ht, k', hfk, -⟩
        obtain ⟨f, hf, hh, hi, y, hy, rfl⟩ := (hfr hs).1 hfk
        have hn := hnum hf hh ht hi
        obtain ⟨i, -, hkF, -⟩ := hrow
        have hrow := rowOf_of_div hF (List.getElem?_eq_getElem hri)
        rw [hkk] at hrow
        have hky : k < (fileEntries f true source (ch! "image.pulseId") d.data.trainIds[r / d.framesPerTrain]).length := by
          rw [← hlen hs hf hh, hn]; exact hkF
        have hpk := (hpul r _ _ hrow).2 source m _ hs ⟨f, hf, hh, List.getElem?_eq_getElem hky⟩
        rw [hrp] at hpk
        have hkv : k < (fileEntries f true source (ch! "image." ++ l.name) d.data.trainIds[r / d.framesPerTrain]).length := by omega
        have hfk2 : FrameOf num c source (ch! "image." ++ l.name) d.data.trainIds[r / d.framesPerTrain] k (num y) _ :=
          (hfr hs).2 ⟨f, hf, hh, List.getElem?_eq_getElem hkv, _, List.getElem?_eq_getElem hky, (Option.some.inj hpk).symm⟩
        obtain rfl := huniq _ hs _ _ _ _ _ _ hfk2 hfk
        exact ⟨source, _, k, hs, hrow, f, hf, hh, hi⟩
    cases hg : l.grid.cell r m with
    | some v => exact ((hcell v).1 hg).symm
    | none =>
      cases hg2 : a.cell m d.data.trainIds[r / d.framesPerTrain] p with
      | none => rfl
      | some v => rw [(hcell v).2 hg2] at hg; simp at hg
  · intro t p v hcell
    obtain ⟨ht, k, hfk, -⟩ := (hexact t p v).1 hcell
    obtain ⟨f, hf, hh, hi, y, hy, rfl⟩ := (hfr hs).1 hfk
    have hn := hnum hf hh ht hi
    have hk := (List.getElem?_eq_some_iff.1 hi).1
    obtain ⟨i, hti⟩ := List.mem_iff_getElem?.1 ht
    have hrow : RowOf d.data.trainIds d.framesPerTrain (i * d.framesPerTrain + k) t k := ⟨i, hti, by rw [← hn]; exact hk, rfl⟩
    exact ⟨_, (hrows _ _ _ hrow).1, (hpul _ _ _ hrow).2 source m y hs ⟨f, hf, hh, hy⟩⟩

set_option maxRecDepth 20000 in
/-- The example of Props/DetArray.lean meets the hypotheses, for both modules: train 12 has no frames in module 3. -/
theorem exDet_cxi_array : ∃ x l a, exDet.writeVirtualCxi id [2, 2] = .ok x ∧ l ∈ x.layouts ∧ l.name = ch! "data" ∧
    exDet.getArray ⟨true, true⟩ id (ch! "image.data") (.by_ true (.slice .none .none .none)) = .ok (.pulses a) ∧
    a.cell 3 11 7 = some 111 ∧ a.cell 3 12 7 = none ∧
    ∀ source m, (source, m) ∈ exDet.sourceToModno → ∀ (r : Nat) t p, x.trainIds[r]? = some t → x.pulseIds[r]? = some p →
      l.grid.cell r m = a.cell m t p := by
  obtain ⟨x, hx⟩ : ∃ x, exDet.writeVirtualCxi id [2, 2] = .ok x := by
    cases hx : exDet.writeVirtualCxi id [2, 2] with
    | ok x => exact ⟨x, rfl⟩
    | error e => have := exDet_write.1; rw [hx] at this; simp [Except.map] at this
  have hn := exDet_write.2.2.2.1
  rw [hx] at hn
  simp only [Except.map, Except.ok.injEq] at hn
  obtain ⟨l, ls, hls⟩ : ∃ l ls, x.layouts = l :: ls := by
    cases hl : x.layouts with
    | nil => rw [hl] at hn; simp at hn
    | cons l ls => exact ⟨l, ls, rfl⟩
  have hname : l.name = ch! "data" := by
    rw [hls] at hn
    simp only [List.map_cons, List.cons.injEq, Prod.mk.injEq] at hn
    exact hn.1.1
  have ha : exDet.getArray ⟨true, true⟩ id (ch! "image.data") (.by_ true (.slice .none .none .none)) = .ok (.pulses
      ⟨[0, 3], [10, 11, 12], [5, 7], [2, 2],
      [(0, [((10, 5), 200), ((10, 7), 201), ((11, 5), 210), ((11, 7), 211), ((12, 5), 220), ((12, 7), 221)]),
       (3, [((10, 5), 100), ((10, 7), 101), ((11, 5), 110), ((11, 7), 111)])]⟩) := by decide
  refine ⟨x, l, _, hx, by rw [hls]; simp, hname, ha, by decide, by decide, ?_⟩
  intro source m hs
  refine (cxi_equals_array exDet_init exDet_hasImages.1 exDet_valid.1 exDet_hasImages.2 exDet_cxi.1 hx (l := l)
    (by rw [hls]; simp) ?_ ?_ ?_ ?_ (by rw [hname]; exact ha) hs).1
  · rw [hname]; exact fun s hs => ⟨followsIn_of_valid (exDet_valid.2.1 s hs).1, followsIn_of_valid (exDet_cxi.2.1 s hs)⟩
  · rw [hname]; exact fun s hs => runsValid_of_valid (exDet_valid.2.1 s hs)
  · rw [hname]; exact exDet_valid.2.2
  · rw [hname]
    intro s hs t k k' p v v' h1 h2
    rcases exDet_sources hs with rfl | rfl <;>
      (have := (exDet_frame h1).2; have := (exDet_frame h2).2; omega)

end KD

/- Property C57: when iterating over the trains of a detector succeeds. -/
import Verif.Props.DetIterate
import Verif.Props.DetIterSlow
import Verif.Props.DetSuccess
import Verif.Props.Cxi

set_option linter.unusedSimpArgs false

namespace KD
open Spec

variable {V : Type}

theorem arange_increasing (a b : Nat) {s : Nat} (hs : 0 < s) : (arange a b s).Pairwise (· < ·) := by
  unfold arange
  rw [List.pairwise_iff_getElem]
  intro i j hi hj hij
  rw [List.getElem_range', List.getElem_range']
  have := Nat.mul_lt_mul_of_pos_left hij hs
  omega

/-- The positions wanted of the frames of one train can be read. -/
theorem iterPos_succeeds {pulses : Pulses} {ids : List Nat} {rows : List V} {first count : Nat}
    (hs : GoodStep pulses) (hlen : ids.length = count) (hn : first + count ≤ rows.length)
    (hset : pulses.byId = false → pulses.set.desired.Pairwise (· < ·)) :
    ∃ qs ps' r, npTake ids (if pulses.byId then iterPulseIds pulses.set ids else iterPulseIndices pulses.set count) = .ok ps' ∧
      h5Take true rows first (if pulses.byId then iterPulseIds pulses.set ids else iterPulseIndices pulses.set count) = .ok r ∧
      mapE (nth ids) qs = .ok ps' ∧ mapE (fun q => nth rows (first + q)) qs = .ok r ∧ qs.Pairwise (· < ·) := by
  subst hlen
  have list : ∀ qs : List Nat, qs.Pairwise (· < ·) → (∀ q ∈ qs, q < ids.length) →
      ∃ ps' r, npTake ids (.list qs) = .ok ps' ∧ h5Take true rows first (.list qs) = .ok r ∧ mapE (nth ids) qs = .ok ps' ∧
        mapE (fun q => nth rows (first + q)) qs = .ok r := by
    intro qs h1 h2
    obtain ⟨ps', e1⟩ := npTake_ok (l := ids) (pos := .list qs) (Or.inr rfl) h2
    obtain ⟨r, e2⟩ := h5Take_ok (rows := rows) (a := first) (pos := .list qs) hn (Or.inr rfl) h2 h1
    exact ⟨ps', r, e1, e2, listReads hn e1 e2⟩
  obtain ⟨byId, set⟩ := pulses
  cases byId with
  | true =>
    simp only [if_true]
    unfold iterPulseIds
    split
    · rename_i a b
      have hB := headD_nonzero_le (ids.map (fun p => decide (p ≥ b)))
      rw [List.length_map] at hB
      refine ⟨_, _, _, rfl, rfl, slStep_reads ids _ _ (by decide), ?_, arange_increasing _ _ (by decide)⟩
      rw [Nat.min_eq_left hB]
      exact h5Slice_reads (by decide) hB hn
    · obtain ⟨ps', r, h⟩ := list (isinPositions ids set.desired) (nonzero_pairwise _) (by
        intro q hq
        obtain ⟨p, hp, -⟩ := mem_isin.1 hq
        exact (List.getElem?_eq_some_iff.1 hp).1)
      exact ⟨_, ps', r, h.1, h.2.1, h.2.2.1, h.2.2.2, nonzero_pairwise _⟩
  | false =>
    simp only [Bool.false_eq_true, if_false]
    unfold iterPulseIndices
    cases set with
    | slice a b s =>
      have hs := hs a b s rfl
      refine ⟨_, _, _, rfl, rfl, slStep_reads ids _ _ hs, ?_, arange_increasing _ _ hs⟩
      rw [show min (min b ids.length) ids.length = min b ids.length by omega]
      exact h5Slice_reads hs (by omega) hn
    | list l =>
      have hl : (l.filter (fun k => decide (k < ids.length))).Pairwise (· < ·) := List.Pairwise.filter _ (hset rfl)
      obtain ⟨ps', r, h⟩ := list _ hl (by
        intro q hq
        simpa using (List.mem_filter.1 hq).2)
      exact ⟨_, ps', r, h.1, h.2.1, h.2.2.1, h.2.2.2, hl⟩

/-- The frames of one module in one train can be read. -/
theorem iterPulseData_ok {libs : Libs} {num : V → Nat} {source key : Str} {ps : Pulses} {t pos : Nat} {f : FileAccess V}
    {ds : Dataset V} (hlib : libs.emptyListOk = true)
    (hpos : f.trainIds[pos]? = some t) (hds : f.dataset (ch! "INSTRUMENT") source key = .ok ds)
    (hv : IndexedField f true source key) (hv' : IndexedField f true source (pulseIdKey key)) (hs : GoodStep ps)
    (hset : ps.byId = false → ps.set.desired.Pairwise (· < ·))
    (huniq : ∀ k k' p v v', FrameIn num f source key t k p v → FrameIn num f source key t k' p v' → k = k')
    (hdim : (squeezeShape ds.rowShape).length = 3 ∨ (squeezeShape ds.rowShape).length = 2 ∨ (squeezeShape ds.rowShape).length = 0) :
    ∃ a, iterPulseData libs num source key ps t (f, pos, ds) = .ok a ∧ a.rowShape = squeezeShape ds.rowShape := by
  obtain ⟨fi1, co1, ds1, ix1, d1, l1, l1', b1⟩ := hv.data
  obtain ⟨fi2, co2, ds2, ix2, d2, l2, l2', b2⟩ := hv'.data
  have g1 : groupName true key = (partition '.' key).1 := rfl
  rw [g1] at ix1
  rw [pulseIdKey_group, g1, ix1] at ix2
  obtain ⟨rfl, rfl⟩ := Prod.mk.inj (Except.ok.inj ix2)
  have s1 : sectionName true = ch! "INSTRUMENT" := rfl
  rw [s1] at d1 d2
  rw [hds] at d1
  obtain rfl := Except.ok.inj d1
  have hlt := (List.getElem?_eq_some_iff.1 hpos).1
  have hfirst : fi1[pos]? = some (fi1[pos]'(by omega)) := List.getElem?_eq_getElem _
  have hcount : co1[pos]? = some (co1[pos]'(by omega)) := List.getElem?_eq_getElem _
  generalize fi1[pos]'(by omega) = first at hfirst
  generalize co1[pos]'(by omega) = count at hcount
  have bd1 := b1 pos first count hfirst hcount
  have bd2 := b2 pos first count hfirst hcount
  have hk : (partition '.' key).1 ++ ch! ".pulseId" = pulseIdKey key := rfl
  have hids : ∀ q p, ((sl ds2.rows first (first + count)).map num)[q]? = some p →
      q < count ∧ ∃ x, ds2.rows[first + q]? = some x ∧ num x = p := by
    intro q p
    rw [List.getElem?_map, Option.map_eq_some_iff]
    rintro ⟨x, hx, rfl⟩
    rw [sl_getElem?] at hx
    split at hx
    · exact ⟨by omega, x, hx, rfl⟩
    · simp at hx
  obtain ⟨qs, pids, rws, t1, t2, m1, m2, hq⟩ := iterPos_succeeds (pulses := ps)
    (ids := (sl ds2.rows first (first + count)).map num) (rows := ds.rows) hs
    (by rw [List.length_map, sl_length _ _ _ bd2]; omega) bd1 hset
  have hnd : pids.Nodup := by
    refine mapE_pairwise m1 hq ?_
    intro a ha b hb x y hab hx hy hxy
    subst hxy
    rw [nth_ok_iff] at hx hy
    obtain ⟨h1, h2⟩ := hids a x hx
    obtain ⟨h3, h4⟩ := hids b x hy
    have ha' : first + a < ds.rows.length := by omega
    have hb' : first + b < ds.rows.length := by omega
    have := huniq a b x _ _ ⟨pos, fi1, co1, first, count, hpos, ix1, hfirst, hcount, h1, ⟨ds2, d2, h2⟩, ds, hds, List.getElem?_eq_getElem ha'⟩
      ⟨pos, fi1, co1, first, count, hpos, ix1, hfirst, hcount, h3, ⟨ds2, d2, h4⟩, ds, hds, List.getElem?_eq_getElem hb'⟩
    omega
  have hlab : (pids.map (fun p => (t, p))).Nodup := hnd.map (fun a b h => by simpa using h)
  unfold iterPulseData
  simp only [ix1, nth_ok_iff.2 hfirst, nth_ok_iff.2 hcount, hk, d2, hlib]
  rw [t1]
  simp only
  rw [t2]
  simp only
  unfold guessAxes
  simp only
  rw [if_neg (by rcases hdim with h | h | h <;> rw [h] <;> decide),
    if_neg (by rw [List.length_map, mapE_length m1, mapE_length m2]; simp), if_neg (by rw [hlab.dedup]; simp)]
  exact ⟨_, rfl, rfl⟩

/-- C57. Iterating over the trains of a detector succeeds, with versions of h5py which accept an empty list, whenever: the selection of
pulses is accepted (a list given to `by_index` must increase); the modules are all in the files kept, and their data can be read; the index of the frames, contiguous or not, lies inside the data and
distinct pulse IDs in each train; for each key all frames have the same shape, with two or three dimensions or none, apart from the
one of length 1 which raw files have; and other data of the modules in one train has shapes with which one shape begins. -/
theorem iterate_succeeds {kind : Option Str} {c : DC V} {name : Option Str} {modules : Option (List Nat)} {minModules : Int}
    {d : Det V} {libs : Libs} {num : V → Nat} {arg : PulseArg} {ps : Pulses}
    (hd : Det.init kind c name modules minModules = .ok d) (hlib : libs.emptyListOk = true)
    (hps : checkPulses libs arg = .ok ps) (hl : ∀ l, arg = .by_ false (.list l) → l.Pairwise (· < ·) ∧ ∀ i ∈ l, 0 ≤ i)
    (hp : PlainSources d) (hgood : GoodData d.data) (hsrc : ∀ x ∈ d.sourceToModno, x.1 ∈ d.data.instrumentSources)
    (hv : ∀ x ∈ d.sourceToModno, ∀ rest, Available d.data x.1 (ch! "image." ++ rest) →
      FramesIndexed c x.1 (ch! "image." ++ rest) ∧ PulsesDistinct num c x.1 (ch! "image." ++ rest))
    (hshape : ∀ rest, (∃ x ∈ d.sourceToModno, Available d.data x.1 (ch! "image." ++ rest)) →
      ∃ shape, ((entryShape shape).length = 3 ∨ (entryShape shape).length = 2 ∨ (entryShape shape).length = 0) ∧
      ∀ x ∈ d.sourceToModno, ∀ f ∈ c.files, Holds f x.1 → ∀ ds, f.dataset (ch! "INSTRUMENT") x.1 (ch! "image." ++ rest) = .ok ds →
        ds.rowShape = shape)
    (hslow : ∀ t ∈ d.data.trainIds, Complete d.data t → ∀ key, (¬ ∃ rest, key = ch! "image." ++ rest) →
      ∃ shape, ∀ x ∈ d.sourceToModno, Available d.data x.1 key → ∀ sizes, HasSizes c x.1 key t sizes → sizes <+: shape) :
    ∃ items, d.trains libs num arg = .ok items := by
  obtain ⟨hmods, hord⟩ := detector_modules hd
  obtain ⟨hn, hsort, -, -, hfs, -⟩ := init_data hd hp
  have hsa : ∀ x ∈ d.modules, x.2 ∈ d.data.allSources := by
    intro x hx
    have := hsrc (x.2, x.1) ((hmods x.2 x.1).1 hx)
    simp [DC.allSources, this]
  have hkey : ∀ t, Complete d.data t → ∀ x ∈ d.modules, ∀ key, Available d.data x.2 key → ∃ o, d.pureKey libs num ps t (x.1, x.2, key) = .ok o ∧
      ∀ y, o = some y → y.1 = key ∧ (¬ startsWith key (ch! "image.") = true → ∃ sizes e, y.2.2 = .slow sizes e ∧
        HasSizes c x.2 key t sizes) ∧ (startsWith key (ch! "image.") = true → ∃ a, y.2.2 = .pulse a ∧
        ∀ shape, (∀ f ∈ c.files, Holds f x.2 → ∀ ds, f.dataset (ch! "INSTRUMENT") x.2 key = .ok ds → ds.rowShape = shape) →
          a.rowShape = entryShape shape) := by
    rintro t hcomp ⟨m, s⟩ hx key hav
    have hin := (hmods s m).1 hx
    simp only at hav ⊢
    unfold Det.pureKey Det.pureFind
    simp only
    cases hfd : d.data.findData s t with
    | none => exact ⟨none, rfl, by simp⟩
    | some fp =>
      obtain ⟨f, pos⟩ := fp
      obtain ⟨f1, f2, f3, -⟩ := findData_some hfd
      obtain ⟨firsts, counts, ds, a, n, g1, g2, g3, g4, g5, g6⟩ :=
        fileEntries_at (hgood.instr s (hsrc _ hin) key hav f f1 f2) f3
      have g2 : f.dataset (ch! "INSTRUMENT") s key = .ok ds := g2
      simp only [g2]
      by_cases hk : startsWith key (ch! "image.") = true
      · rw [if_pos hk]
        obtain ⟨rest, rfl⟩ := startsWith_iff.1 hk
        obtain ⟨shape, hdim, hsh⟩ := hshape rest ⟨_, hin, hav⟩
        obtain ⟨hv1, hu1⟩ := hv _ hin rest hav
        have e := hsh _ hin f (hfs f f1) f2 ds g2
        obtain ⟨b, hb, hbs⟩ := iterPulseData_ok (libs := libs) (num := num) (ps := ps) hlib f3 g2 (hv1.1 f (hfs f f1) f2)
          (hv1.2 f (hfs f f1) f2) (checkPulses_step hps) (checkPulses_increasing hps hl)
          (fun k k' p v v' h h' => hu1 t k k' p v v' ⟨f, hfs f f1, f2, h⟩ ⟨f, hfs f f1, f2, h'⟩)
          (by rw [e, squeezeShape_eq]; exact hdim)
        rw [hb]
        refine ⟨_, rfl, ?_⟩
        intro y hy
        obtain rfl := Option.some.inj hy
        refine ⟨rfl, fun h => absurd hk h, fun _ => ⟨b, rfl, ?_⟩⟩
        intro shape' hsh'
        rw [hbs, hsh' f (hfs f f1) f2 ds g2, squeezeShape_eq]
        rfl
      · rw [if_neg hk]
        obtain ⟨e, e1, -, e3⟩ := iterEntry_valid (hgood.instr s (hsrc _ hin) key hav f f1 f2) f3 g2
          (hcomp.2 s (hsrc _ hin) key hav f f1 f2 (List.mem_of_getElem? f3))
        rw [e1]
        refine ⟨_, rfl, ?_⟩
        intro y hy
        obtain rfl := Option.some.inj hy
        exact ⟨rfl, fun _ => ⟨_, e, rfl, f, hfs f f1, f2, List.mem_of_getElem? f3, ds, g2, e3⟩, fun h => absurd h hk⟩
  have hass : ∀ t ∈ d.data.trainIds, Complete d.data t → ∃ x, d.pureAssemble libs num ps t = .ok x := by
    intro t htd hcomp
    obtain ⟨work, hw⟩ := mapE_exists_ok (f := d.workOf) (l := d.modules) (by
      intro x hx
      obtain ⟨ks, hks⟩ := hgood.keys x.2 (hsa x hx)
      exact ⟨_, by unfold Det.workOf; rw [hks]⟩)
    have hwork : ∀ w ∈ work.flatten, ∃ x ∈ d.modules, ∃ key, Available d.data x.2 key ∧ w = (x.1, x.2, key) := by
      intro w hww
      obtain ⟨ws, hws, hww⟩ := List.mem_flatten.1 hww
      obtain ⟨x, hx, hxw⟩ := (mapE_mem hw).1 hws
      obtain ⟨ks, hks, rfl⟩ := workOf_ok hxw
      obtain ⟨k, hk, rfl⟩ := List.mem_map.1 hww
      exact ⟨x, hx, k, (available_keys (hsa x hx) hks).1 hk, rfl⟩
    obtain ⟨l, hl'⟩ := mapE_exists_ok (f := d.pureKey libs num ps t) (l := work.flatten) (by
      intro w hww
      obtain ⟨x, hx, key, hav, rfl⟩ := hwork w hww
      obtain ⟨o, ho, -⟩ := hkey t hcomp x hx key hav
      exact ⟨o, ho⟩)
    have hitems : ∀ y ∈ l.filterMap id, startsWith y.1 (ch! "image.") = true →
        (∃ x ∈ d.sourceToModno, Available d.data x.1 y.1) ∧ ∃ a, y.2.2 = .pulse a ∧
        ∀ shape, (∀ x ∈ d.sourceToModno, ∀ f ∈ c.files, Holds f x.1 → ∀ ds, f.dataset (ch! "INSTRUMENT") x.1 y.1 = .ok ds →
          ds.rowShape = shape) → a.rowShape = entryShape shape := by
      intro y hy hi
      rw [List.mem_filterMap] at hy
      obtain ⟨o, ho, rfl⟩ := hy
      obtain ⟨w, hww, hwo⟩ := (mapE_mem hl').1 ho
      obtain ⟨x, hx, key, hav, rfl⟩ := hwork w hww
      obtain ⟨o, ho, hy⟩ := hkey t hcomp x hx key hav
      rw [hwo] at ho
      obtain rfl := Except.ok.inj ho
      obtain ⟨e, -, h2⟩ := hy y rfl
      rw [e] at hi ⊢
      obtain ⟨a, ha, hs⟩ := h2 hi
      exact ⟨⟨_, (hmods x.2 x.1).1 hx, hav⟩, a, ha, fun shape hsh => hs shape (hsh (x.2, x.1) ((hmods x.2 x.1).1 hx))⟩
    have hslows : ∀ y ∈ l.filterMap id, ¬ startsWith y.1 (ch! "image.") = true →
        ∃ x ∈ d.sourceToModno, Available d.data x.1 y.1 ∧ ∃ sizes e, y.2.2 = .slow sizes e ∧ HasSizes c x.1 y.1 t sizes := by
      intro y hy hi
      rw [List.mem_filterMap] at hy
      obtain ⟨o, ho, rfl⟩ := hy
      obtain ⟨w, hww, hwo⟩ := (mapE_mem hl').1 ho
      obtain ⟨x, hx, key, hav, rfl⟩ := hwork w hww
      obtain ⟨o, ho, hy⟩ := hkey t hcomp x hx key hav
      rw [hwo] at ho
      obtain rfl := Except.ok.inj ho
      obtain ⟨e, h2, -⟩ := hy y rfl
      rw [e] at hi ⊢
      exact ⟨_, (hmods x.2 x.1).1 hx, hav, h2 hi⟩
    unfold Det.pureAssemble
    rw [hw]
    simp only
    rw [hl']
    simp only
    apply mapE_exists_ok
    intro key hk
    rw [List.mem_dedup, List.mem_map] at hk
    obtain ⟨y, hy, rfl⟩ := hk
    unfold joinKey
    simp only
    by_cases hi : startsWith y.1 (ch! "image.") = true
    · rw [if_pos hi]
      obtain ⟨rest, hrest⟩ := startsWith_iff.1 hi
      obtain ⟨shape, -, hsh⟩ := hshape rest (by rw [← hrest]; exact (hitems y hy hi).1)
      rw [← hrest] at hsh
      have hall : ∀ z ∈ pulseParts (((l.filterMap id).filter (fun x => x.1 = y.1)).map Prod.snd), z.2.rowShape = entryShape shape := by
        rintro ⟨m, b⟩ hz
        rw [mem_pulseParts, List.mem_map] at hz
        obtain ⟨z, hz, e⟩ := hz
        rw [List.mem_filter] at hz
        have hzy : z.1 = y.1 := by simpa using hz.2
        obtain ⟨-, a, ha, hs⟩ := hitems z hz.1 (by rw [hzy]; exact hi)
        rw [e] at ha
        simp only [ModData.pulse.injEq] at ha
        subst ha
        exact hs shape (by rw [hzy]; exact hsh)
      have hne : pulseParts (((l.filterMap id).filter (fun x => x.1 = y.1)).map Prod.snd) ≠ [] := by
        obtain ⟨-, a, ha, -⟩ := hitems y hy hi
        have : (y.2.1, a) ∈ pulseParts (((l.filterMap id).filter (fun x => x.1 = y.1)).map Prod.snd) := by
          rw [mem_pulseParts, List.mem_map]
          exact ⟨y, List.mem_filter.2 ⟨hy, by simp⟩, by rw [← ha]⟩
        intro h
        rw [h] at this
        simp at this
      generalize pulseParts (((l.filterMap id).filter (fun x => x.1 = y.1)).map Prod.snd) = parts at hall hne
      cases parts with
      | nil => exact absurd rfl hne
      | cons z zs =>
        unfold concatModules
        simp only
        rw [joinImageSizes_same (s := entryShape shape) (by
          intro a ha
          obtain ⟨z', hz', rfl⟩ := List.mem_map.1 ha
          exact hall z' hz') (by simp)]
        exact ⟨_, rfl⟩
    · rw [if_neg hi]
      obtain ⟨shape, hsh⟩ := hslow t htd hcomp y.1 (fun h => hi (startsWith_iff.2 h))
      obtain ⟨u, hu, -⟩ := joinSizes_exists
        (l := (slowParts (((l.filterMap id).filter (fun x => x.1 = y.1)).map Prod.snd)).map (fun x => x.2.1)) (u := shape) (by
        intro sizes hs
        obtain ⟨⟨m, s, e⟩, hz, rfl⟩ := List.mem_map.1 hs
        rw [mem_slowParts, List.mem_map] at hz
        obtain ⟨z, hz, he⟩ := hz
        rw [List.mem_filter] at hz
        have hzy : z.1 = y.1 := by simpa using hz.2
        obtain ⟨x, hx, hav, sizes, e', h1, h2⟩ := hslows z hz.1 (by rw [hzy]; exact hi)
        rw [he] at h1
        simp only [ModData.slow.injEq] at h1
        obtain ⟨rfl, rfl⟩ := h1
        rw [hzy] at hav h2
        exact hsh x hx hav s h2)
      rw [hu]
      exact ⟨_, rfl⟩
  unfold Det.trains
  rw [hps]
  simp only
  rw [detIterate_pure hn libs num ps _ _ (fun s k f ds h => by simp at h)]
  obtain ⟨l, hl'⟩ := mapE_exists_ok (f := d.pureStep libs num ps) (l := d.data.trainIds) (by
    intro t htd
    unfold Det.pureStep
    rw [checkDataMissing_good hn hgood]
    split
    · next he => simp at he
    · exact ⟨_, rfl⟩
    · next he =>
      obtain ⟨x, hx⟩ := hass t htd (by simpa using he)
      rw [hx]; exact ⟨_, rfl⟩)
  rw [hl']
  exact ⟨_, rfl⟩

end KD

namespace KD
open Spec

theorem exDet_available {x : Str × Nat} (hx : x ∈ exDet.sourceToModno) {k : Str} (h : Available exDet.data x.1 k) :
    k = ch! "image.data" ∨ k = ch! "image.pulseId" ∨ k = ch! "image.cellId" := by
  have e : ∀ x ∈ exDet.sourceToModno, x.1 ∈ exDet.data.allSources ∧
      exDet.data.keysForSource x.1 = .ok [ch! "image.pulseId", ch! "image.data", ch! "image.cellId"] := by decide
  obtain ⟨h1, h2⟩ := e x hx
  have := (available_keys h1 h2).2 h
  simp only [List.mem_cons, List.not_mem_nil, or_false] at this
  tauto

theorem exDet_keys {k : Str} (hk : k = ch! "image.data" ∨ k = ch! "image.pulseId" ∨ k = ch! "image.cellId") :
    pulseIdKey k = ch! "image.pulseId" ∧ (partition '.' k).1 = ch! "image" ∧
    (∀ x ∈ exDet.sourceToModno, ValidIn exDetData true x.1 k) ∧
    ∃ shape, ((entryShape shape).length = 3 ∨ (entryShape shape).length = 2 ∨ (entryShape shape).length = 0) ∧
      ∀ x ∈ exDet.sourceToModno, ∀ f ∈ exDetData.files, Holds f x.1 → ∀ ds, f.dataset (ch! "INSTRUMENT") x.1 k = .ok ds → ds.rowShape = shape := by
  obtain ⟨-, h1, -⟩ := exDet_cxi
  rcases hk with rfl | rfl | rfl
  · refine ⟨by decide, by decide, fun x hx => (exDet_valid.2.1 x hx).1, [1, 2, 2], by decide, fun x hx f hf hh ds hds => ?_⟩
    rcases exDet_files hf hx hh with ⟨rfl, e⟩ | ⟨rfl, e⟩ <;> rw [e] at hds
    · obtain rfl := Except.ok.inj ((exModule_data (Or.inr rfl)).1.symm.trans hds); rfl
    · obtain rfl := Except.ok.inj ((exModule_data (Or.inl rfl)).1.symm.trans hds); rfl
  · refine ⟨by decide, by decide, h1, [], by decide, fun x hx f hf hh ds hds => ?_⟩
    rcases exDet_files hf hx hh with ⟨rfl, e⟩ | ⟨rfl, e⟩ <;> rw [e] at hds
    · obtain rfl := Except.ok.inj ((exModule_data (Or.inr rfl)).2.1.symm.trans hds); rfl
    · obtain rfl := Except.ok.inj ((exModule_data (Or.inl rfl)).2.1.symm.trans hds); rfl
  · refine ⟨by decide, by decide, exDet_cells, [], by decide, fun x hx f hf hh ds hds => ?_⟩
    rcases exDet_files hf hx hh with ⟨rfl, e⟩ | ⟨rfl, e⟩ <;> rw [e] at hds
    · obtain rfl := Except.ok.inj ((exModule_data (Or.inr rfl)).2.2.symm.trans hds); rfl
    · obtain rfl := Except.ok.inj ((exModule_data (Or.inl rfl)).2.2.symm.trans hds); rfl

theorem exDet_good : GoodData exDet.data := by
  have e : exDet.data.instrumentSources = [exSource '3', exSource '0'] := by decide
  have ec : exDet.data.controlSources = [] := by decide
  have ea : exDet.data.allSources = [exSource '3', exSource '0'] := by decide
  refine ⟨?_, ?_, ?_⟩
  · intro s hs
    rw [ea] at hs
    exact ⟨[ch! "image.pulseId", ch! "image.data", ch! "image.cellId"], by
      rcases List.mem_cons.1 hs with rfl | hs
      · decide
      · rw [List.mem_singleton] at hs; subst hs; decide⟩
  · intro s hs k hk f hf hh
    rw [e] at hs
    obtain ⟨x, hx, rfl⟩ : ∃ x ∈ exDet.sourceToModno, x.1 = s := by
      rcases List.mem_cons.1 hs with rfl | hs
      · exact ⟨_, List.mem_cons_self, rfl⟩
      · rw [List.mem_singleton] at hs
        exact ⟨(exSource '0', 0), by simp [exDet], hs.symm⟩
    exact ((exDet_keys (exDet_available hx hk)).2.2.1 x hx f hf hh).indexed
  · intro s hs
    rw [ec] at hs
    simp at hs

/-- The example meets the hypotheses of `iterate_succeeds`. -/
example : ∃ items, exDet.trains ⟨true, true⟩ id (.by_ true (.list [7])) = .ok items := by
  refine iterate_succeeds (ps := ⟨true, .list [7]⟩) exDet_init rfl (by decide) (by simp) exDet_valid.1 exDet_good (by decide) ?_ ?_ ?_
  · intro x hx rest hav
    obtain ⟨k1, k2, k3, -⟩ := exDet_keys (exDet_available hx hav)
    refine ⟨framesIndexed_of_valid ⟨k3 x hx, by rw [k1]; exact exDet_cxi.2.1 x hx⟩, ?_⟩
    intro t k k' p v v' h1 h2
    rcases exDet_sources hx with rfl | rfl <;>
      (have := (exDet_frame_key k1 k2 h1).2; have := (exDet_frame_key k1 k2 h2).2; omega)
  · rintro rest ⟨x, hx, hav⟩
    exact (exDet_keys (exDet_available hx hav)).2.2.2
  · intro t _ _ key hk
    refine ⟨[], fun x hx hav => ?_⟩
    exfalso
    rcases exDet_available hx hav with rfl | rfl | rfl
    · exact hk ⟨ch! "data", rfl⟩
    · exact hk ⟨ch! "pulseId", rfl⟩
    · exact hk ⟨ch! "cellId", rfl⟩

end KD

/- Properties C28-C31: reading one train at a time. -/
import Verif.Lemmas.OneTrain
import Verif.Lemmas.Trains
import Verif.Props.Arrays

set_option linter.unusedSimpArgs false

namespace KD
open Spec

variable {V W : Type}

/-! ### C28 -/

theorem mapE_keyed {f : Str → R (Str × W)} (hf : ∀ a v, f a = .ok v → v.1 = a) {l : List Str} {r : List (Str × W)}
    (h : mapE f l = .ok r) : r.map Prod.fst = l ∧ ∀ a ∈ l, ∃ w, f a = .ok (a, w) ∧ (a, w) ∈ r := by
  induction l generalizing r with
  | nil => simp only [mapE, Except.ok.injEq] at h; subst h; simp
  | cons x l ih =>
    obtain ⟨b, bs, h1, h2, rfl⟩ := mapE_cons_ok.1 h
    obtain ⟨i1, i2⟩ := ih h2
    have hb := hf x b h1
    refine ⟨by simp [i1, hb], fun a ha => ?_⟩
    rcases List.mem_cons.1 ha with rfl | ha
    · exact ⟨b.2, by rw [h1, ← hb], by simp [← hb]⟩
    · obtain ⟨w, hw, hm⟩ := i2 a ha
      exact ⟨w, hw, by simp [hm]⟩

theorem trainControl_fst {c : DC V} {t : Nat} {s : Str} {v : Str × SourceData V} (h : c.trainControl t s = .ok v) :
    v.1 = s ∧ v.2.mdSource = s ∧ v.2.mdTid = t := by
  unfold DC.trainControl at h
  split at h
  · simp at h; subst h; simp
  · split at h
    · simp at h
    · split at h
      · simp at h
      · simp at h; subst h; simp

theorem trainInstrument_fst {c : DC V} {t : Nat} {s : Str} {v : Str × SourceData V} (h : c.trainInstrument t s = .ok v) :
    v.1 = s ∧ v.2.mdSource = s ∧ v.2.mdTid = t := by
  unfold DC.trainInstrument at h
  split at h
  · simp at h; subst h; simp
  · split at h
    · simp at h
    · split at h
      · simp at h
      · simp at h; subst h; simp

theorem trainFromId_ok {c : DC V} {tid t : Nat} {d : Dict Str (SourceData V)} (h : c.trainFromId tid = .ok (t, d)) :
    t = tid ∧ tid ∈ c.trainIds ∧ d.keys.Nodup ∧ (∀ s, s ∈ d.keys ↔ s ∈ c.allSources) ∧
    (∀ s ∈ c.instrumentSources, ∃ sd, d.get? s = some sd ∧ c.trainInstrument tid s = .ok (s, sd)) ∧
    (∀ s ∈ c.controlSources, s ∉ c.instrumentSources → ∃ sd, d.get? s = some sd ∧ c.trainControl tid s = .ok (s, sd)) := by
  unfold DC.trainFromId at h
  split at h
  · simp at h
  · next hmem =>
    cases hc : mapE (c.trainControl tid) c.controlSources with
    | error e => simp [hc] at h
    | ok ctrl =>
      cases hi : mapE (c.trainInstrument tid) c.instrumentSources with
      | error e => simp [hc, hi] at h
      | ok inst =>
        simp only [hc, hi, Except.ok.injEq, Prod.mk.injEq] at h
        obtain ⟨rfl, rfl⟩ := h
        obtain ⟨c1, c2⟩ := mapE_keyed (fun a v h => (trainControl_fst h).1) hc
        obtain ⟨i1, i2⟩ := mapE_keyed (fun a v h => (trainInstrument_fst h).1) hi
        have nd1 : (ctrl.map Prod.fst).Nodup := by rw [c1]; exact List.nodup_dedup _
        have nd2 : (inst.map Prod.fst).Nodup := by rw [i1]; exact List.nodup_dedup _
        refine ⟨rfl, not_not.1 hmem, Dict.nodup_update (Dict.nodup_update (by simp [Dict.keys]) _) _, fun s => ?_, fun s hs => ?_, fun s hs hns => ?_⟩
        · rw [Dict.mem_keys_update, Dict.mem_keys_update, c1, i1]
          simp [DC.allSources, Dict.keys]
        · obtain ⟨w, hw, hm⟩ := i2 s hs
          exact ⟨w, Dict.get?_update_mem nd2 hm, hw⟩
        · obtain ⟨w, hw, hm⟩ := c2 s hs
          refine ⟨w, ?_, hw⟩
          rw [Dict.get?_update_notMem (by rw [i1]; exact hns), Dict.get?_update_mem nd1 hm]

/-- C28. The result is labelled with the train, has one dictionary for each selected source, and each carries its
metadata. -/
theorem train_from_id_sources {c : DC V} {tid t : Nat} {d : Dict Str (SourceData V)} (h : c.trainFromId tid = .ok (t, d)) :
    t = tid ∧ tid ∈ c.trainIds ∧ d.keys.Nodup ∧ (∀ s, s ∈ d.keys ↔ s ∈ c.allSources) ∧
    (∀ s sd, d.get? s = some sd → sd.mdSource = s ∧ sd.mdTid = tid) := by
  obtain ⟨h1, h2, h3, h4, h5, h6⟩ := trainFromId_ok h
  refine ⟨h1, h2, h3, h4, fun s sd hsd => ?_⟩
  have hs : s ∈ c.allSources := (h4 s).1 (Dict.mem_keys_iff.2 ⟨_, hsd⟩)
  by_cases hi : s ∈ c.instrumentSources
  · obtain ⟨sd', e1, e2⟩ := h5 s hi
    rw [hsd] at e1; obtain rfl := Option.some.inj e1
    exact (trainInstrument_fst e2).2
  · have hc : s ∈ c.controlSources := by simpa [DC.allSources, hi] using hs
    obtain ⟨sd', e1, e2⟩ := h6 s hc hi
    rw [hsd] at e1; obtain rfl := Option.some.inj e1
    exact (trainControl_fst e2).2

theorem available_keys {c : DC V} {s k : Str} {ks : List Str} (hs : s ∈ c.allSources) (h : c.keysForSource s = .ok ks) :
    k ∈ ks ↔ Available c s k := by
  unfold Available
  constructor
  · intro hk; exact ⟨hs, ks, h, hk⟩
  · rintro ⟨-, ks', h', hk⟩; rw [h] at h'; obtain rfl := Except.ok.inj h'; exact hk

theorem instrumentEntry_valid {f : FileAccess V} {s k : Str} {pos t : Nat} (hv : IndexedField f true s k)
    (hp : f.trainIds[pos]? = some t) :
    instrumentEntry f pos s k = .ok ((shown (fileEntries f true s k t)).map (fun e => (k, e))) := by
  obtain ⟨firsts, counts, ds, a, n, h1, h2, h3, h4, h5, h6⟩ := fileEntries_at hv hp
  unfold instrumentEntry
  rw [h6, shown_slice h5]
  rw [show f.getIndex s (partition '.' k).1 = .ok (firsts, counts) from h1]
  simp only [nth_ok_iff.2 h3, nth_ok_iff.2 h4]
  by_cases h0 : n = 0
  · simp [h0]
  · rw [if_neg h0, if_neg h0]
    rw [show f.dataset (ch! "INSTRUMENT") s k = .ok ds from h2]
    by_cases h1' : n = 1
    · subst h1'
      have : a < ds.rows.length := by omega
      simp only [if_true, Dataset.row, nth_ok_of_lt this, List.getElem?_eq_getElem this, Option.map_some]
    · simp only [if_neg h1', sl_eq_slice, Option.map_some]

/-- The key of an entry is the requested one. -/
theorem instrumentEntry_key {f : FileAccess V} {s k k' : Str} {pos : Nat} {e : Entry V}
    (h : instrumentEntry f pos s k = .ok (some (k', e))) : k' = k := by
  unfold instrumentEntry at h
  split at h
  · simp at h
  · split at h
    · split at h
      · simp at h
      · split at h
        · simp at h
        · split at h
          · split at h
            · simp at h
            · simp at h; exact h.1.symm
          · simp at h; exact h.1.symm
    · simp at h
    · simp at h

/-- C28, instrument data. What is shown for a key which is available are the entries of the train in the file having it:
the single entry, an array of several, and nothing if there are none. Other keys are absent. -/
theorem train_from_id_instrument {c : DC V} {tid t : Nat} {d : Dict Str (SourceData V)} (hc : NoConflict c.files)
    (h : c.trainFromId tid = .ok (t, d)) {s : Str} (hs : s ∈ c.instrumentSources) {sd : SourceData V}
    (hsd : d.get? s = some sd) (k : Str) :
    (Available c s k → IndexedIn c true s k → ∀ f ∈ c.files, Holds f s → tid ∈ f.trainIds →
      sd.data.get? k = shown (fileEntries f true s k tid)) ∧
    (¬ Available c s k ∨ ¬ Covered c s tid → sd.data.get? k = none) := by
  obtain ⟨h1, h2, h3, h4, h5, h6⟩ := trainFromId_ok h
  obtain ⟨sd', e1, e2⟩ := h5 s hs
  rw [hsd] at e1; obtain rfl := Option.some.inj e1
  have hsa : s ∈ c.allSources := by simp [DC.allSources, hs]
  unfold DC.trainInstrument at e2
  constructor
  · intro hav hv f hf hh ht
    obtain ⟨pos, hfd⟩ := findData_of_mem hc hf hh ht
    obtain ⟨-, -, hp, -⟩ := findData_some hfd
    rw [hfd] at e2
    simp only at e2
    split at e2
    · simp at e2
    · next ks hks =>
      split at e2
      · simp at e2
      · next items hit =>
        simp at e2; subst e2
        have hk : k ∈ ks := (available_keys hsa hks).2 hav
        have hval := instrumentEntry_valid (hv f hf hh) hp
        have hall : ∀ w, (k, w) ∈ items.filterMap id → some w = shown (fileEntries f true s k tid) := by
          intro w hw
          rw [List.mem_filterMap] at hw
          obtain ⟨x, hx, hxe⟩ := hw
          obtain rfl : x = some (k, w) := hxe
          obtain ⟨k', -, hk'⟩ := (mapE_mem hit).1 hx
          obtain rfl := instrumentEntry_key hk'
          rw [hval] at hk'
          simp only [Except.ok.injEq, Option.map_eq_some_iff, Prod.mk.injEq, true_and, exists_eq_right] at hk'
          exact hk'.symm
        cases hsh : shown (fileEntries f true s k tid) with
        | none =>
          apply get?_of_none
          intro w hw
          have := hall w hw
          rw [hsh] at this; simp at this
        | some e =>
          refine get?_of_all ?_ (fun w hw => by
            have := hall w hw
            rw [hsh] at this; exact Option.some.inj this)
          rw [List.mem_filterMap]
          refine ⟨some (k, e), (mapE_mem hit).2 ⟨k, hk, ?_⟩, rfl⟩
          rw [hval, hsh]; rfl
  · intro hno
    cases hfd : c.findData s tid with
    | none =>
      rw [hfd] at e2
      simp at e2; subst e2; rfl
    | some fp =>
      obtain ⟨f, pos⟩ := fp
      have hcov : Covered c s tid := by
        by_contra hn
        rw [findData_none.2 hn] at hfd; simp at hfd
      have hav : ¬ Available c s k := hno.resolve_right (not_not.2 hcov)
      rw [hfd] at e2
      simp only at e2
      split at e2
      · simp at e2
      · next ks hks =>
        split at e2
        · simp at e2
        · next items hit =>
          simp at e2; subst e2
          apply get?_of_none
          intro w hw
          rw [List.mem_filterMap] at hw
          obtain ⟨x, hx, hxe⟩ := hw
          obtain rfl : x = some (k, w) := hxe
          obtain ⟨k', hk1, hk'⟩ := (mapE_mem hit).1 hx
          obtain rfl := instrumentEntry_key hk'
          exact hav ((available_keys hsa hks).1 hk1)

theorem controlEntry_key {f : FileAccess V} {s k : Str} {pos : Nat} {ke : Str × Entry V}
    (h : controlEntry f pos s k = .ok ke) : ke.1 = k := by
  unfold controlEntry at h
  split at h
  · simp at h
  · split at h
    · simp at h
    · simp at h; subst h; rfl

theorem controlEntry_valid {f : FileAccess V} {s k : Str} {pos t : Nat} (hv : IndexedField f false s k)
    (h1 : OnePerTrain f s) (hp : f.trainIds[pos]? = some t) :
    ∃ v, controlEntry f pos s k = .ok (k, .one v) ∧ fileEntries f false s k t = [v] := by
  obtain ⟨firsts, counts, ds, a, n, g1, g2, g3, g4, g5, g6⟩ := fileEntries_at hv hp
  rw [show f.getIndex s (groupName false k) = _ from h1] at g1
  simp only [Except.ok.injEq, Prod.mk.injEq] at g1
  obtain ⟨rfl, rfl⟩ := g1
  have hlt : pos < f.trainIds.length := (List.getElem?_eq_some_iff.1 hp).1
  rw [List.getElem?_range hlt] at g3
  rw [List.getElem?_replicate, if_pos hlt] at g4
  obtain rfl := Option.some.inj g3
  obtain rfl := Option.some.inj g4
  have : pos < ds.rows.length := by omega
  refine ⟨ds.rows[pos], ?_, ?_⟩
  · unfold controlEntry
    rw [show f.dataset (ch! "CONTROL") s k = .ok ds from g2]
    simp [Dataset.row, nth_ok_of_lt this]
  · rw [g6]
    unfold slice
    rw [List.drop_eq_getElem_cons this]
    rfl

/-- C28, control data, for files which have one entry for each train (see `train_from_id_control_gap` for others). -/
theorem train_from_id_control_partial {c : DC V} {tid t : Nat} {d : Dict Str (SourceData V)} (hc : NoConflict c.files)
    (h : c.trainFromId tid = .ok (t, d)) {s : Str} (hs : s ∈ c.controlSources) (hni : s ∉ c.instrumentSources)
    {sd : SourceData V} (hsd : d.get? s = some sd) (k : Str) :
    (Available c s k → IndexedIn c false s k → (∀ f ∈ c.files, Holds f s → OnePerTrain f s) →
      ∀ f ∈ c.files, Holds f s → tid ∈ f.trainIds → sd.data.get? k = shown (fileEntries f false s k tid)) ∧
    (¬ Available c s k ∨ ¬ Covered c s tid → sd.data.get? k = none) := by
  obtain ⟨h1, h2, h3, h4, h5, h6⟩ := trainFromId_ok h
  obtain ⟨sd', e1, e2⟩ := h6 s hs hni
  rw [hsd] at e1; obtain rfl := Option.some.inj e1
  have hsa : s ∈ c.allSources := by simp [DC.allSources, hs]
  unfold DC.trainControl at e2
  constructor
  · intro hav hv hone f hf hh ht
    obtain ⟨pos, hfd⟩ := findData_of_mem hc hf hh ht
    obtain ⟨-, -, hp, -⟩ := findData_some hfd
    rw [hfd] at e2
    simp only at e2
    split at e2
    · simp at e2
    · next ks hks =>
      split at e2
      · simp at e2
      · next items hit =>
        simp at e2; subst e2
        have hk : k ∈ ks := (available_keys hsa hks).2 hav
        obtain ⟨v, hval, hent⟩ := controlEntry_valid (hv f hf hh) (hone f hf hh) hp
        rw [hent]
        refine get?_of_all ((mapE_mem hit).2 ⟨k, hk, hval⟩) (fun w hw => ?_)
        obtain ⟨k', -, hk'⟩ := (mapE_mem hit).1 hw
        obtain rfl := controlEntry_key hk'
        rw [hval] at hk'
        simp at hk'; exact hk'.symm
  · intro hno
    cases hfd : c.findData s tid with
    | none =>
      rw [hfd] at e2
      simp at e2; subst e2; rfl
    | some fp =>
      obtain ⟨f, pos⟩ := fp
      have hcov : Covered c s tid := by
        by_contra hn
        rw [findData_none.2 hn] at hfd; simp at hfd
      have hav : ¬ Available c s k := hno.resolve_right (not_not.2 hcov)
      rw [hfd] at e2
      simp only at e2
      split at e2
      · simp at e2
      · next ks hks =>
        split at e2
        · simp at e2
        · next items hit =>
          simp at e2; subst e2
          apply get?_of_none
          intro w hw
          obtain ⟨k', hk1, hk'⟩ := (mapE_mem hit).1 hw
          obtain rfl := controlEntry_key hk'
          exact hav ((available_keys hsa hks).1 hk1)

theorem nonzero_first {ts : List Nat} {t pos : Nat} (h : (nonzero (ts.map (fun x => x == t))).head? = some pos) :
    ∀ i < pos, ts[i]? ≠ some t := by
  intro i hi hit
  have hm : i ∈ nonzero (ts.map (fun x => x == t)) := mem_nonzero.2 (by simp [hit])
  cases hn : nonzero (ts.map (fun x => x == t)) with
  | nil => rw [hn] at hm; simp at hm
  | cons a l =>
    rw [hn] at h hm
    obtain rfl := Option.some.inj h
    have hpw := nonzero_pairwise (ts.map (fun x => x == t))
    rw [hn, List.pairwise_cons] at hpw
    rcases List.mem_cons.1 hm with rfl | hm
    · omega
    · have := hpw.1 i hm
      omega

/-- C28, control data of any file: what is shown for the train is the row of the dataset at the position of the train in the file, whatever
the index says. -/
theorem train_from_id_control_row {c : DC V} {tid t : Nat} {d : Dict Str (SourceData V)} (hc : NoConflict c.files)
    (h : c.trainFromId tid = .ok (t, d)) {s : Str} (hs : s ∈ c.controlSources) (hni : s ∉ c.instrumentSources)
    {sd : SourceData V} (hsd : d.get? s = some sd) {k : Str} (hav : Available c s k)
    {f : FileAccess V} (hf : f ∈ c.files) (hh : Holds f s) (ht : tid ∈ f.trainIds) :
    ∃ ds, ∃ v : V, ∃ pos : Nat, f.dataset (ch! "CONTROL") s k = .ok ds ∧ f.trainIds[pos]? = some tid ∧ (∀ i < pos, f.trainIds[i]? ≠ some tid) ∧
      ds.rows[pos]? = some v ∧ sd.data.get? k = some (.one v) := by
  obtain ⟨h1, h2, h3, h4, h5, h6⟩ := trainFromId_ok h
  obtain ⟨sd', e1, e2⟩ := h6 s hs hni
  rw [hsd] at e1; obtain rfl := Option.some.inj e1
  have hsa : s ∈ c.allSources := by simp [DC.allSources, hs]
  unfold DC.trainControl at e2
  obtain ⟨pos, hfd⟩ := findData_of_mem hc hf hh ht
  obtain ⟨-, -, hp, hfirst⟩ := findData_some hfd
  rw [hfd] at e2
  simp only at e2
  split at e2
  · simp at e2
  · next ks hks =>
    split at e2
    · simp at e2
    · next items hit =>
      simp at e2; subst e2
      have hk : k ∈ ks := (available_keys hsa hks).2 hav
      obtain ⟨ke, hke⟩ : ∃ ke, controlEntry f pos s k = .ok ke := (mapE_ok_all hit hk).imp fun _ hx => hx.2
      have hkey := controlEntry_key hke
      have hget : Dict.get? items k = some ke.2 := by
        refine get?_of_all ((mapE_mem hit).2 ⟨k, hk, by rw [hke, ← hkey]⟩) (fun w hw => ?_)
        obtain ⟨k', -, hk'⟩ := (mapE_mem hit).1 hw
        obtain rfl := controlEntry_key hk'
        rw [hke] at hk'
        rw [Except.ok.inj hk']
      unfold controlEntry at hke
      split at hke
      · simp at hke
      · next ds hds =>
        split at hke
        · simp at hke
        · next v hv =>
          obtain rfl := Except.ok.inj hke
          exact ⟨ds, v, pos, hds, hp, nonzero_first hfirst, nth_ok_iff.1 hv, hget⟩

/-- C28, control data, exactly: in a file with a valid index whose entries are all different, the right entry is shown for a train just when the
index says that the train has one entry, and that it is at the position of the train in the file. -/
theorem train_from_id_control_iff {c : DC V} {tid t : Nat} {d : Dict Str (SourceData V)} (hc : NoConflict c.files)
    (h : c.trainFromId tid = .ok (t, d)) {s : Str} (hs : s ∈ c.controlSources) (hni : s ∉ c.instrumentSources)
    {sd : SourceData V} (hsd : d.get? s = some sd) {k : Str} (hav : Available c s k)
    {f : FileAccess V} (hf : f ∈ c.files) (hh : Holds f s) (hv : IndexedField f false s k) {pos : Nat} (hp : f.trainIds[pos]? = some tid)
    (hdiff : ∀ ds, f.dataset (ch! "CONTROL") s k = .ok ds → ds.rows.Nodup) :
    sd.data.get? k = shown (fileEntries f false s k tid) ↔
      ∃ firsts counts, f.getIndex s [] = .ok (firsts, counts) ∧ firsts[pos]? = some pos ∧ counts[pos]? = some 1 := by
  obtain ⟨ds, v, p, g1, g2, g3, g4, g5⟩ := train_from_id_control_row hc h hs hni hsd hav hf hh (List.mem_of_getElem? hp)
  obtain rfl : p = pos := (List.nodup_iff_getElem?_ne_getElem?.1 hv.trains |> fun hn => by
    rcases Nat.lt_trichotomy p pos with hl | he | hl
    · exact absurd (g2.trans hp.symm) (hn _ _ hl (List.getElem?_eq_some_iff.1 hp).1)
    · exact he
    · exact absurd hp (g3 _ hl))
  obtain ⟨firsts, counts, ds', a, n, i1, i2, i3, i4, i5, i6⟩ := fileEntries_at hv hp
  obtain rfl := Except.ok.inj (g1.symm.trans i2)
  have hnd := hdiff ds g1
  rw [g5, i6, shown_slice i5]
  constructor
  · intro he
    refine ⟨firsts, counts, i1, ?_⟩
    split at he
    · simp at he
    · split at he
      · next h1 =>
        obtain ⟨w, hw1, hw2⟩ := Option.map_eq_some_iff.1 he.symm
        obtain rfl := Entry.one.inj hw2
        have : a = p := by
          by_contra hne
          rcases Nat.lt_or_gt_of_ne hne with hl | hl
          · exact List.nodup_iff_getElem?_ne_getElem?.1 hnd _ _ hl (List.getElem?_eq_some_iff.1 g4).1 (hw1.trans g4.symm)
          · exact List.nodup_iff_getElem?_ne_getElem?.1 hnd _ _ hl (List.getElem?_eq_some_iff.1 hw1).1 (g4.trans hw1.symm)
        rw [i3, i4, this, h1]
        exact ⟨rfl, rfl⟩
      · simp at he
  · rintro ⟨fi, co, j1, j2, j3⟩
    obtain ⟨rfl, rfl⟩ := Prod.mk.inj (Except.ok.inj ((show f.getIndex s [] = .ok (firsts, counts) from i1).symm.trans j1))
    obtain rfl := Option.some.inj (i3.symm.trans j2)
    obtain rfl := Option.some.inj (i4.symm.trans j3)
    simp [g4]

/-- Everything a user can read in the collection is in good order: keys can be listed, and each field which is available
is a valid instrument field, or a valid control field with one entry per train. -/
structure GoodData (c : DC V) : Prop where
  keys : KeysReadable c
  instr : ∀ s ∈ c.instrumentSources, ∀ k, Available c s k → IndexedIn c true s k
  ctrl : ∀ s ∈ c.controlSources, s ∉ c.instrumentSources ∧ ∀ k, Available c s k →
    IndexedIn c false s k ∧ ∀ f ∈ c.files, Holds f s → OnePerTrain f s

/-- C28. With data in good order there is a result for every train of the collection. -/
theorem train_from_id_succeeds {c : DC V} (hg : GoodData c) {tid : Nat} (ht : tid ∈ c.trainIds) :
    ∃ d, c.trainFromId tid = .ok (tid, d) := by
  have h1 : ∃ ctrl, mapE (c.trainControl tid) c.controlSources = .ok ctrl := by
    apply mapE_exists_ok
    intro s hs
    have hsa : s ∈ c.allSources := by simp [DC.allSources, hs]
    obtain ⟨hni, hgc⟩ := hg.ctrl s hs
    obtain ⟨ks, hks⟩ := hg.keys s hsa
    unfold DC.trainControl
    cases hfd : c.findData s tid with
    | none => exact ⟨_, rfl⟩
    | some fp =>
      obtain ⟨f, pos⟩ := fp
      obtain ⟨hf, hh, hp, -⟩ := findData_some hfd
      have : ∃ items, mapE (controlEntry f pos s) ks = .ok items := by
        apply mapE_exists_ok
        intro k hk
        obtain ⟨i1, i2⟩ := hgc k ((available_keys hsa hks).1 hk)
        obtain ⟨v, hv, -⟩ := controlEntry_valid (i1 f hf hh) (i2 f hf hh) hp
        exact ⟨_, hv⟩
      obtain ⟨items, hi⟩ := this
      exact ⟨(s, ⟨s, tid, items⟩), by simp [hks, hi]⟩
  have h2 : ∃ inst, mapE (c.trainInstrument tid) c.instrumentSources = .ok inst := by
    apply mapE_exists_ok
    intro s hs
    have hsa : s ∈ c.allSources := by simp [DC.allSources, hs]
    obtain ⟨ks, hks⟩ := hg.keys s hsa
    unfold DC.trainInstrument
    cases hfd : c.findData s tid with
    | none => exact ⟨_, rfl⟩
    | some fp =>
      obtain ⟨f, pos⟩ := fp
      obtain ⟨hf, hh, hp, -⟩ := findData_some hfd
      have : ∃ items, mapE (instrumentEntry f pos s) ks = .ok items := by
        apply mapE_exists_ok
        intro k hk
        exact ⟨_, instrumentEntry_valid (hg.instr s hs k ((available_keys hsa hks).1 hk) f hf hh) hp⟩
      obtain ⟨items, hi⟩ := this
      exact ⟨(s, ⟨s, tid, items.filterMap id⟩), by simp [hks, hi]⟩
  obtain ⟨ctrl, h1⟩ := h1
  obtain ⟨inst, h2⟩ := h2
  unfold DC.trainFromId
  rw [if_neg (not_not.2 ht), h1, h2]
  exact ⟨_, rfl⟩

theorem keysForSource_not_trainId {c : DC V} {s : Str} : c.keysForSource s ≠ .error .trainId := by
  intro h
  unfold DC.keysForSource at h
  split at h
  · simp at h
  · simp at h
  · split at h
    · unfold FileAccess.getKeys FileAccess.readKeys at h
      split at h
      · split at h
        · next e he =>
          simp at h; subst h
          unfold visitDatasets at he
          dsimp only at he
          split at he <;> simp at he
        · simp at h
      · split at h
        · split at h
          · next e he =>
            simp at h; subst h
            unfold visitDatasets at he
            dsimp only at he
            split at he <;> simp at he
          · simp at h
        · simp at h
    · simp at h

theorem dataset_not_trainId {f : FileAccess V} {a b k : Str} : f.dataset a b k ≠ .error .trainId :=
  fun h => by have := need_error h; simp at this

theorem getIndex_not_trainId {f : FileAccess V} {a b : Str} : f.getIndex a b ≠ .error .trainId := by
  intro h
  unfold FileAccess.getIndex FileAccess.readIndex at h
  dsimp only at h
  split at h
  · next he => simp at h; subst h; have := need_error he; simp at this
  · split at h
    · next he => simp at h; subst h; have := need_error he; simp at this
    · split at h
      · simp at h
      · split at h
        · split at h
          · next he => simp at h; subst h; have := zipBroad_error he; simp at this
          · split at h
            · next he => simp at h; subst h; have := zipBroad_error he; simp at this
            · simp at h
        · simp at h

/-- C28. TrainIDError exactly when the train is not in the collection. -/
theorem train_from_id_error (c : DC V) (tid : Nat) : c.trainFromId tid = .error .trainId ↔ tid ∉ c.trainIds := by
  unfold DC.trainFromId
  by_cases ht : tid ∈ c.trainIds
  · simp only [ht, not_true_eq_false, if_false, iff_false]
    have h1 : mapE (c.trainControl tid) c.controlSources ≠ .error .trainId := by
      intro h
      obtain ⟨s, -, hs⟩ := mapE_error_mem h
      unfold DC.trainControl at hs
      split at hs
      · simp at hs
      · split at hs
        · next he => simp at hs; subst hs; exact keysForSource_not_trainId he
        · split at hs
          · next he =>
            simp at hs; subst hs
            obtain ⟨k, -, hk⟩ := mapE_error_mem he
            unfold controlEntry at hk
            split at hk
            · next he => simp at hk; subst hk; exact dataset_not_trainId he
            · split at hk
              · next he => simp at hk; subst hk; have := nth_error he; simp at this
              · simp at hk
          · simp at hs
    have h2 : mapE (c.trainInstrument tid) c.instrumentSources ≠ .error .trainId := by
      intro h
      obtain ⟨s, -, hs⟩ := mapE_error_mem h
      unfold DC.trainInstrument at hs
      split at hs
      · simp at hs
      · split at hs
        · next he => simp at hs; subst hs; exact keysForSource_not_trainId he
        · split at hs
          · next he =>
            simp at hs; subst hs
            obtain ⟨k, -, hk⟩ := mapE_error_mem he
            unfold instrumentEntry at hk
            split at hk
            · next he => simp at hk; subst hk; exact getIndex_not_trainId he
            · split at hk
              · split at hk
                · simp at hk
                · split at hk
                  · next he => simp at hk; subst hk; exact dataset_not_trainId he
                  · split at hk
                    · split at hk
                      · next he => simp at hk; subst hk; have := nth_error he; simp at this
                      · simp at hk
                    · simp at hk
              · next he => simp at hk; subst hk; have := nth_error he; simp at this
              · next he _ => simp at hk; subst hk; have := nth_error he; simp at this
          · simp at hs
    cases hc : mapE (c.trainControl tid) c.controlSources with
    | error e => simp only; intro he; simp at he; subst he; exact h1 hc
    | ok ctrl =>
      cases hi : mapE (c.trainInstrument tid) c.instrumentSources with
      | error e => simp only; intro he; simp at he; subst he; exact h2 hi
      | ok inst => simp
  · simp [ht]

/-- C28 with a selection: the train must be in the collection; the rest is as for the selected data. -/
theorem train_from_id_selection (c : DC V) (tid : Nat) (sel : SelArg) :
    (tid ∉ c.trainIds → c.trainFromIdSel tid (some sel) = .error .trainId) ∧
    (tid ∈ c.trainIds → (∀ d, c.select sel = .ok d → c.trainFromIdSel tid (some sel) = d.trainFromId tid) ∧
      ∀ e, c.select sel = .error e → c.trainFromIdSel tid (some sel) = .error e) := by
  unfold DC.trainFromIdSel
  refine ⟨fun h => by simp [h], fun h => ⟨fun d hd => by simp [h, hd], fun e he => by simp [h, he]⟩⟩

/-- A file with control data `C`, `x.value` and the given index. -/
def exCtrl (name : Str) (tids firsts counts rows : List Nat) : FileAccess Nat :=
  ⟨name, tids, [ch! "C"], [],
    { trainId := some tids, version := some (ch! "1.0"), sources05 := none, sources10 := some [ch! "CONTROL/C"],
      index := [([ch! "INDEX", ch! "C"],
        ⟨some (firsts.map (BitVec.ofNat 64)), some (counts.map (BitVec.ofNat 64)), none, none⟩)],
      groups := [], datasets := [([ch! "CONTROL", ch! "C", ch! "x", ch! "value"], ⟨rows, [], 0⟩)] }⟩

/-- C28 is false for control data whose index leaves out a train, such as a virtual file written by `write_virtual`
can have: for train 1 there are no entries, but the entry of train 2 is shown. -/
theorem train_from_id_control_gap :
    let f := exCtrl (ch! "a") [1, 2] [0, 0] [0, 1] [20]
    fileEntries f false (ch! "C") (ch! "x.value") 1 = [] ∧
    fileEntries f false (ch! "C") (ch! "x.value") 2 = [20] ∧
    (DC.make [f] none none true).map (fun c => c.trainFromId 1) =
      .ok (.ok (1, [(ch! "C", ⟨ch! "C", 1, [(ch! "x.value", .one 20)]⟩)])) := by decide

/-- A collection with control and instrument data in two files each. -/
def exTrains : DC Nat where
  files := [exInst (ch! "a") [1, 3] [0, 2] [2, 1] [10, 11, 12], exInst (ch! "b") [2, 4] [0, 1] [1, 0] [20],
    exCtrl (ch! "c") [1, 2, 3] [0, 1, 2] [1, 1, 1] [31, 32, 33]]
  selection := [(ch! "D:o", none), (ch! "C", none)]
  trainIds := [1, 2, 3, 4]
  ctxCloses := true

example : exTrains.trainFromId 1 = .ok (1, [(ch! "C", ⟨ch! "C", 1, [(ch! "x.value", .one 31)]⟩),
      (ch! "D:o", ⟨ch! "D:o", 1, [(ch! "data.y", .many [10, 11])]⟩)]) ∧
    exTrains.trainFromId 2 = .ok (2, [(ch! "C", ⟨ch! "C", 2, [(ch! "x.value", .one 32)]⟩),
      (ch! "D:o", ⟨ch! "D:o", 2, [(ch! "data.y", .one 20)]⟩)]) ∧
    exTrains.trainFromId 4 = .ok (4, [(ch! "C", ⟨ch! "C", 4, []⟩), (ch! "D:o", ⟨ch! "D:o", 4, []⟩)]) ∧
    exTrains.trainFromId 5 = .error .trainId := ⟨by decide, by decide, by decide, by decide⟩

theorem exCtrl_valid {name : Str} {tids rows : List Nat} (h1 : tids.Nodup) (h2 : tids.length ≤ rows.length)
    (h3 : tids.length < 2 ^ 64) :
    IndexedField (exCtrl name tids (List.range tids.length) (List.replicate tids.length 1) rows) false (ch! "C")
      (ch! "x.value") ∧
    OnePerTrain (exCtrl name tids (List.range tids.length) (List.replicate tids.length 1) rows) (ch! "C") := by
  have e : ∀ l : List Nat, (∀ n ∈ l, n < 2 ^ 64) → (l.map (BitVec.ofNat 64)).map BitVec.toNat = l := by
    intro l hl
    rw [List.map_map]
    conv_rhs => rw [← List.map_id l]
    apply List.map_congr_left
    intro n hn
    simp only [Function.comp, BitVec.toNat_ofNat, id]
    exact Nat.mod_eq_of_lt (hl n hn)
  have hix : (exCtrl name tids (List.range tids.length) (List.replicate tids.length 1) rows).getIndex (ch! "C") [] =
      .ok (List.range tids.length, List.replicate tids.length 1) := by
    have hp : h5path (ch! "/INDEX/" ++ ch! "C" ++ ch! "/" ++ ([] : Str)) = [ch! "INDEX", ch! "C"] := by decide
    unfold FileAccess.getIndex FileAccess.readIndex
    dsimp only
    rw [hp]
    simp only [exCtrl, Dict.get?, if_true, need]
    rw [List.take_of_length_le (by simp), List.take_of_length_le (by simp), e, e]
    · intro n hn; rw [List.eq_of_mem_replicate hn]; decide
    · intro n hn; have := List.mem_range.1 hn; omega
  refine ⟨⟨h1, by simp [exCtrl], _, _, ⟨rows, [], 0⟩, hix, ?_, by simp [exCtrl], by simp [exCtrl], ?_⟩, hix⟩
  · unfold FileAccess.dataset
    have hp : h5path (ch! "/" ++ sectionName false ++ ch! "/" ++ ch! "C" ++ ch! "/" ++ replaceCh '.' '/' (ch! "x.value"))
        = [ch! "CONTROL", ch! "C", ch! "x", ch! "value"] := by decide
    rw [hp]
    simp only [exCtrl, Dict.get?, if_true, need]
  · intro i a n ha hn
    have hi : i < tids.length := by
      have := (List.getElem?_eq_some_iff.1 ha).1
      simpa using this
    rw [List.getElem?_range hi] at ha
    rw [List.getElem?_replicate, if_pos hi] at hn
    simp at ha hn
    show a + n ≤ rows.length
    omega

theorem exTrains_available {s k : Str} (h : Available exTrains s k) :
    (s = ch! "D:o" ∧ k = ch! "data.y") ∨ (s = ch! "C" ∧ k = ch! "x.value") := by
  obtain ⟨h1, ks, h2, h3⟩ := h
  have h1 : s = ch! "C" ∨ s = ch! "D:o" := by
    have e : exTrains.allSources = [ch! "C", ch! "D:o"] := by decide
    rw [e] at h1; simpa using h1
  rcases h1 with rfl | rfl
  · have : exTrains.keysForSource (ch! "C") = .ok [ch! "x.value"] := by decide
    rw [this] at h2; obtain rfl := Except.ok.inj h2
    right; exact ⟨rfl, by simpa using h3⟩
  · have : exTrains.keysForSource (ch! "D:o") = .ok [ch! "data.y"] := by decide
    rw [this] at h2; obtain rfl := Except.ok.inj h2
    left; exact ⟨rfl, by simpa using h3⟩

/-- The hypotheses of C28-C30 hold for this collection. -/
theorem exTrains_good : NoConflict exTrains.files ∧ GoodData exTrains := by
  refine ⟨hasConflicts_false.1 (by decide), ⟨?_, ?_, ?_⟩⟩
  · intro s hs
    have e : exTrains.allSources = [ch! "C", ch! "D:o"] := by decide
    rw [e] at hs
    simp only [List.mem_cons, List.not_mem_nil, or_false] at hs
    rcases hs with rfl | rfl
    · exact ⟨[ch! "x.value"], by decide⟩
    · exact ⟨[ch! "data.y"], by decide⟩
  · intro s hs k hk
    have e : exTrains.instrumentSources = [ch! "D:o"] := by decide
    rw [e] at hs
    obtain rfl := List.mem_singleton.1 hs
    rcases exTrains_available hk with ⟨-, rfl⟩ | ⟨h, -⟩
    · intro f hf hh
      rcases List.mem_cons.1 hf with rfl | hf
      · have := exInst_valid (name := ch! "a") (tids := [1, 3]) (firsts := [0, 2]) (counts := [2, 1]) (rows := [10, 11, 12])
          (by decide) (by decide) rfl rfl (contiguous_cons rfl (contiguous_one _ _))
          (inBounds_cons (by decide) (inBounds_cons (by decide) (inBounds_nil _))) (by decide) (by decide)
        exact this.indexed
      · rcases List.mem_cons.1 hf with rfl | hf
        · have := exInst_valid (name := ch! "b") (tids := [2, 4]) (firsts := [0, 1]) (counts := [1, 0]) (rows := [20])
            (by decide) (by decide) rfl rfl (contiguous_cons rfl (contiguous_one _ _))
            (inBounds_cons (by decide) (inBounds_cons (by decide) (inBounds_nil _))) (by decide) (by decide)
          exact this.indexed
        · obtain rfl := List.mem_singleton.1 hf
          exact absurd hh (by simp [Holds, exCtrl])
    · exact absurd h (by decide)
  · intro s hs
    have e : exTrains.controlSources = [ch! "C"] := by decide
    rw [e] at hs
    obtain rfl := List.mem_singleton.1 hs
    refine ⟨by decide, fun k hk => ?_⟩
    rcases exTrains_available hk with ⟨h, -⟩ | ⟨-, rfl⟩
    · exact absurd h (by decide)
    · have hx : ∀ f ∈ exTrains.files, Holds f (ch! "C") →
          IndexedField f false (ch! "C") (ch! "x.value") ∧ OnePerTrain f (ch! "C") := by
        intro f hf hh
        rcases List.mem_cons.1 hf with rfl | hf
        · exact absurd hh (by simp [Holds, exInst])
        · rcases List.mem_cons.1 hf with rfl | hf
          · exact absurd hh (by simp [Holds, exInst])
          · obtain rfl := List.mem_singleton.1 hf
            exact exCtrl_valid (tids := [1, 2, 3]) (by decide) (by decide) (by decide)
      exact ⟨fun f hf hh => (hx f hf hh).1, fun f hf hh => (hx f hf hh).2⟩

/-! ### C31 -/

/-- C31. `train_from_index(i)` is `train_from_id` of the train at that position, counting from the end if negative;
IndexError for other positions. -/
theorem train_from_index (c : DC V) (i : Int) (devices : Option SelArg) :
    (∀ n : Nat, (i = n ∨ i = (n : Int) - c.trainIds.length) → ∀ t, c.trainIds[n]? = some t →
      c.trainFromIndex i devices = c.trainFromIdSel t devices) ∧
    ((i < -(c.trainIds.length : Int) ∨ (c.trainIds.length : Int) ≤ i) → c.trainFromIndex i devices = .error .index) := by
  constructor
  · rintro n hi t ht
    have hn := (List.getElem?_eq_some_iff.1 ht).1
    have : pyIndex c.trainIds i = .ok t := by
      rw [pyIndex_ok_iff]
      have : fromEnd c.trainIds.length i = n := by unfold fromEnd; rcases hi with rfl | rfl <;> split <;> omega
      rw [this]
      exact ⟨by omega, by simpa using ht⟩
    unfold DC.trainFromIndex
    rw [this]
  · intro hi
    have : ∃ e, pyIndex c.trainIds i = .error e := pyIndex_error_iff.2 (by omega)
    obtain ⟨e, he⟩ := this
    have he' : e = .index := by
      rw [pyIndex_def] at he
      split at he
      · simpa using he.symm
      · exact nth_error he
    unfold DC.trainFromIndex
    rw [he, he']

example : exTrains.trainFromIndex (-3) none = exTrains.trainFromId 2 ∧ exTrains.trainFromIndex 4 none = .error .index := by
  decide

end KD

/- Property C39: when writing a file of virtual datasets succeeds. -/
import Verif.Props.WriteSucceeds

set_option linter.unusedSimpArgs false

namespace KD
open Spec

variable {V : Type}

/-! ### Adding fields, some without data -/

theorem addFlds_succeed_some {T : List Nat} {D : Fld → Option (Dataset V × List Nat)} {Fs : List Fld}
    (hcol : ∀ F ∈ Fs, ∀ F' ∈ Fs, ixName F' = ixName F → F'.1 = F.1)
    (hD : ∀ F ∈ Fs, ∀ x, D F = some x → F.1 = false → x.2.Nodup)
    (hp : Fs.Pairwise (fun F F' => pathClash (fldPath F) (fldPath F') = false)) :
    ∃ w, foldE (addFld T D) WState.new Fs = .ok w := by
  induction Fs using List.reverseRecOn with
  | nil => exact ⟨_, rfl⟩
  | append_singleton Fs F ih =>
    rw [List.pairwise_append] at hp
    have hcol' : ∀ G ∈ Fs, ∀ G' ∈ Fs, ixName G' = ixName G → G'.1 = G.1 :=
      fun G hG G' hG' => hcol G (by simp [hG]) G' (by simp [hG'])
    obtain ⟨w, hw⟩ := ih hcol' (fun G hG => hD G (by simp [hG])) hp.1
    have hi := winv_fold hcol' hw
    suffices h : ∃ w', addFld T D w F = .ok w' by
      obtain ⟨w', hw'⟩ := h
      exact ⟨w', foldE_append.2 ⟨w, hw, foldE_cons_ok.2 ⟨w', hw', rfl⟩⟩⟩
    cases hx : D F with
    | none => exact ⟨w, by unfold addFld; rw [hx]⟩
    | some x =>
      refine addFld_succeeds (T := T) (w := w) hx (hD F (by simp) x hx) ?_
      intro kv hkv
      rw [hi.data, List.mem_filterMap] at hkv
      obtain ⟨G, hG, hG2⟩ := hkv
      rw [Option.map_eq_some_iff] at hG2
      obtain ⟨y, -, rfl⟩ := hG2
      exact hp.2.2 G hG F (by simp)

/-- The labels of an array are without repeats if and only if every selected train has at most one entry. -/
theorem at_most_one {c : DC V} {b : Bool} {s k : Str} {a : LArr V} {tids : List Nat} (hc : NoConflict c.files)
    (hv : FollowsIn c c.trainIds b s k) (ha : c.getArray s k id = .ok a) (hco : a.coords = some tids) :
    tids.Nodup ↔ ∀ t ∈ c.trainIds, AtMostOneEntry c b s k t := by
  obtain ⟨h1, h2, h3⟩ := get_array_follows hc hv ha
  have hcount := labelled_count h1 hco
  rw [List.nodup_iff_count_le_one]
  constructor
  · intro hn t ht g hg hh
    by_cases htg : t ∈ g.trainIds
    · have h9 := h2 t ht g hg hh htg
      rw [List.map_id] at h9
      rw [← h9, hcount]
      exact hn t
    · rw [fileEntries_notMem htg]; simp
  · intro h t
    rw [← hcount]
    by_cases hx : t ∉ c.trainIds ∨ ∀ f ∈ c.files, Holds f s → t ∉ f.trainIds
    · rw [h3 t hx]; simp
    · push Not at hx
      obtain ⟨ht, f, h6, h7, h8⟩ := hx
      rw [h2 t ht f h6 h7 h8, List.map_id]
      exact h t ht f h6 h7

/-- The data of a field in a virtual file. -/
theorem fldVirtual_labels {c : DC V} (hw : Writable c) {F : Fld} (hF : HasField c F.1 F.2.1 F.2.2)
    (hm : ¬ Mismatch c F.1 F.2.1 F.2.2) : (∃ x, assembleData c F.2.1 F.2.2 = .ok x) ∧
    (∀ x, fldVirtual c F = some x → (x.2.Nodup ↔ ∀ t ∈ c.trainIds, AtMostOneEntry c F.1 F.2.1 F.2.2 t)) ∧
    ((∃ x, fldVirtual c F = some x) ↔ HasData c F.1 F.2.1 F.2.2) := by
  obtain ⟨b, s, k⟩ := F
  simp only at hF hm ⊢
  have hv := hw.valid b s k hF
  obtain ⟨e, hx⟩ := fldVirtual_eq hw.noConflict hv (hasField_available hF) hm
  refine ⟨hx, ?_, ?_⟩
  · intro x h
    rw [e] at h
    obtain ⟨a, ha, hco, -⟩ := fldData_some h
    exact at_most_one hw.noConflict hv ha hco
  · rw [e, fldData_iff hw.noConflict hv]
    constructor
    · rintro ⟨a, -, h⟩; exact h
    · intro h
      obtain ⟨a, h1, -⟩ := (get_array_mismatch_gaps id hw.noConflict hv (hasField_available hF)).2 hm
      exact ⟨a, h1, h⟩

/-- A control source has its data in one group, so all of its keys have the same labels. -/
theorem control_keyGroup {c : DC V} {s k k' : Str} (hv : FollowsIn c c.trainIds false s k) : c.keyGroup s k' = c.keyGroup s k := by
  have hni : s ∉ c.instrumentSources := by
    intro hi
    unfold DC.instrumentSources at hi
    rw [List.mem_dedup, List.mem_flatMap] at hi
    obtain ⟨f, f1, f2⟩ := hi
    have f3 := (List.mem_filter.1 f2).1
    have := (hv f f1 (Or.inr f3)).2.2.1.category
    simp only [Bool.false_eq_true, if_false] at this
    exact this.2 f3
  unfold DC.keyGroup
  rw [if_neg hni, if_neg hni]

theorem vDrop_control {c : DC V} {w : WState V} {s k : Str} (hx : ∃ x, assembleData c s k = .ok x) :
    dropPath (vAddControl c w s k) = addFld c.trainIds (fldVirtual c) w (false, s, k) := by
  obtain ⟨x, hx⟩ := hx
  unfold vAddControl addFld fldVirtual dropPath
  simp only [hx]
  cases x with
  | none => rfl
  | some x =>
    obtain ⟨ds, tids⟩ := x
    simp only
    rw [show sectionName false = ch! "CONTROL" from rfl]
    cases w.create (dataPath (ch! "CONTROL") s k) ds with
    | error e => rfl
    | ok w1 =>
      simp only [makeIx, Bool.false_eq_true, if_false]
      cases makeControlIndex c.trainIds w1 s tids with
      | error e => rfl
      | ok w2 => rfl

theorem vDrop_instrument {c : DC V} {w : WState V} {s k : Str} (hx : ∃ x, assembleData c s k = .ok x) :
    dropPath (vAddInstrument c w s k) = addFld c.trainIds (fldVirtual c) w (true, s, k) := by
  obtain ⟨x, hx⟩ := hx
  unfold vAddInstrument addFld fldVirtual dropPath
  simp only [hx]
  cases x with
  | none => rfl
  | some x =>
    obtain ⟨ds, tids⟩ := x
    simp only
    rw [show sectionName true = ch! "INSTRUMENT" from rfl]
    cases w.create (dataPath (ch! "INSTRUMENT") s k) ds with
    | error e => rfl
    | ok w1 =>
      simp only [makeIx, if_true]
      cases makeInstrumentIndex c.trainIds w1 s k tids with
      | error e => rfl
      | ok w2 => rfl

/-- C39. For readable files which agree on types and shapes, and names which do not collide in one file, `write_virtual` succeeds if and
only if no selected train has two entries of a control field. Unlike for `write`, there may be fields without data, and trains
without control data. -/
theorem write_virtual_succeeds_iff {c : DC V} (hw : Writable c) (ha : NamesApart c) (hk : KeysReadable c)
    (hm : ∀ b s k, HasField c b s k → ¬ Mismatch c b s k) :
    (∃ h, c.writeVirtual = .ok h) ↔ ∀ s k, HasField c false s k → ∀ t ∈ c.trainIds, AtMostOneEntry c false s k t := by
  constructor
  · rintro ⟨h, hwr⟩ s k hF
    obtain ⟨Fs, w, hFs, hfold, -⟩ := writeVirtual_ok hwr
    have hi := winv_fold (fun F hF F' hF' => ixName_instr hw.named ((hFs F).1 hF) ((hFs F').1 hF')) hfold
    obtain ⟨-, l1, l2⟩ := fldVirtual_labels hw (F := (false, s, k)) hF (hm _ _ _ hF)
    have hv := hw.valid _ _ _ hF
    by_cases hD : HasData c false s k
    · obtain ⟨x, hx⟩ := l2.2 hD
      refine (l1 x hx).1 ?_
      obtain ⟨ix, hix⟩ := hi.ixAll (false, s, k) ((hFs _).2 hF) x hx
      obtain ⟨⟨b', s', k'⟩, g1, x', g2, g3, g4⟩ := hi.ixFrom _ _ hix
      have hF' := (hFs _).1 g1
      have hb := ixName_instr hw.named hF hF' g3
      simp only at hb hF'
      subst hb
      simp only [ixName, Bool.false_eq_true, if_false] at g3
      subst g3
      simp only [IxOk, Bool.false_eq_true, if_false] at g4
      rw [(fldVirtual_eq hw.noConflict hv (hasField_available hF) (hm _ _ _ hF)).1] at hx
      rw [(fldVirtual_eq hw.noConflict (hw.valid _ _ _ hF') (hasField_available hF') (hm _ _ _ hF')).1] at g2
      obtain ⟨a1, h11, h12, -⟩ := fldData_some hx
      obtain ⟨a2, h21, h22, -⟩ := fldData_some g2
      have := group_labels (control_keyGroup hv) h11 h21
      rw [h22, h12] at this
      simp only [Option.getD_some] at this
      rw [← this]
      exact g4.1
    · intro t ht g hg hh
      have : fileEntries g false s k t = [] := by
        by_contra hne
        exact hD ⟨t, ht, g, hg, hh, hne⟩
      rw [this]; simp
  · intro hall
    let Fs : List Fld := c.controlSources.flatMap (fun s => (keysOf c s).map (fun k => (false, s, k))) ++
      c.instrumentSources.flatMap (fun s => (keysOf c s).map (fun k => (true, s, k)))
    have hkeys : ∀ s ∈ c.allSources, ∃ ks, c.keysForSource s = .ok ks := hk
    have hkc : ∀ s ∈ c.controlSources, ∃ ks, c.keysForSource s = .ok ks :=
      fun s hs => hk s (by unfold DC.allSources; simp [hs])
    have hki : ∀ s ∈ c.instrumentSources, ∃ ks, c.keysForSource s = .ok ks :=
      fun s hs => hk s (by unfold DC.allSources; simp [hs])
    have hfc : ∀ s ∈ c.controlSources, ∀ k ∈ keysOf c s, HasField c false s k := by
      intro s hs k hk'
      obtain ⟨ks, hks⟩ := hkc s hs
      rw [keysOf_eq hks] at hk'
      exact ⟨by simpa using hs, ks, hks, hk'⟩
    have hfi : ∀ s ∈ c.instrumentSources, ∀ k ∈ keysOf c s, HasField c true s k := by
      intro s hs k hk'
      obtain ⟨ks, hks⟩ := hki s hs
      rw [keysOf_eq hks] at hk'
      exact ⟨by simpa using hs, ks, hks, hk'⟩
    have hFs : ∀ F ∈ Fs, HasField c F.1 F.2.1 F.2.2 := by
      intro F hF
      rcases List.mem_append.1 hF with h | h
      · obtain ⟨s, h1, h2⟩ := List.mem_flatMap.1 h
        obtain ⟨k, h3, rfl⟩ := List.mem_map.1 h2
        exact hfc s h1 k h3
      · obtain ⟨s, h1, h2⟩ := List.mem_flatMap.1 h
        obtain ⟨k, h3, rfl⟩ := List.mem_map.1 h2
        exact hfi s h1 k h3
    have hcol : ∀ F ∈ Fs, ∀ F' ∈ Fs, ixName F' = ixName F → F'.1 = F.1 :=
      fun F hF F' hF' => ixName_instr hw.named (hFs F hF) (hFs F' hF')
    have hnd : Fs.Nodup := by
      have hone : ∀ (b : Bool) (l : List Str), l.Nodup → (∀ s ∈ l, ∃ ks, c.keysForSource s = .ok ks) →
          (l.flatMap (fun s => (keysOf c s).map (fun k => ((b, s, k) : Fld)))).Nodup := by
        intro b l hl hkl
        rw [List.nodup_flatMap]
        refine ⟨?_, ?_⟩
        · intro s hs
          obtain ⟨ks, hks⟩ := hkl s hs
          rw [keysOf_eq hks]
          exact (keysForSource_nodup hks).map (fun k k' h => by simpa using h)
        · refine hl.imp ?_
          intro s s' hne
          simp only [Function.onFun, List.disjoint_left, List.mem_map]
          rintro F ⟨k, -, rfl⟩ ⟨k', -, e⟩
          simp at e
          exact hne e.1.symm
      rw [List.nodup_append]
      refine ⟨hone _ _ (List.nodup_dedup _) hkc, hone _ _ (List.nodup_dedup _) hki, ?_⟩
      intro F hF F' hF' e
      obtain ⟨s, -, h2⟩ := List.mem_flatMap.1 hF
      obtain ⟨k, -, rfl⟩ := List.mem_map.1 h2
      obtain ⟨s', -, h2'⟩ := List.mem_flatMap.1 hF'
      obtain ⟨k', -, rfl⟩ := List.mem_map.1 h2'
      simp at e
    have hpw : Fs.Pairwise (fun F F' => pathClash (fldPath F) (fldPath F') = false) := by
      refine List.Pairwise.imp_of_mem ?_ hnd
      intro F F' hF hF' hne
      rw [pathClash_false]
      exact ⟨fun h => hne (fldPath_apart hw.named ha (hFs F hF) (hFs F' hF') h),
        fun h => hne (fldPath_apart hw.named ha (hFs F' hF') (hFs F hF) h).symm⟩
    obtain ⟨w, hfold⟩ := addFlds_succeed_some (T := c.trainIds) hcol (D := fldVirtual c) (by
      rintro ⟨b, s, k⟩ hF x hx hb
      simp only at hb
      subst hb
      have hF := hFs _ hF
      exact ((fldVirtual_labels hw hF (hm _ _ _ hF)).2.1 x hx).2 (hall s k hF)) hpw
    have hi := winv_fold hcol hfold
    have hnames : ∀ x ∈ w.indexes, ∃ F ∈ Fs, ixName F = x.1 := by
      intro x hx
      obtain ⟨F, h1, -, -, h2, -⟩ := hi.ixFrom x.1 x.2 ((Dict.get?_eq_some_iff (indexes_nodup hfold)).2 hx)
      exact ⟨F, h1, h2⟩
    obtain ⟨index, hindex⟩ := writeIndexes_succeed (l := w.indexes) (by
      intro x hx y hy
      obtain ⟨F, h1, h2⟩ := hnames x hx
      rw [← h2]
      exact ix_not_trainId hw.named ha (hFs F h1) hy) (by
      have hnd := indexes_nodup hfold
      unfold Dict.keys at hnd
      rw [List.Nodup, List.pairwise_map] at hnd
      refine List.Pairwise.imp_of_mem ?_ hnd
      intro x x' hx hx' hne y hy z hz
      obtain ⟨F, h1, h2⟩ := hnames x hx
      obtain ⟨F', h1', h2'⟩ := hnames x' hx'
      rw [← h2, ← h2', pathClash_false]
      rw [← h2, ← h2'] at hne
      exact ⟨fun h => hne (ix_apart hw.named ha (hFs F h1) (hFs F' h1') hy hz h),
        fun h => hne (ix_apart hw.named ha (hFs F' h1') (hFs F h1) hz hy h).symm⟩)
    have eC := writeSources_eq (c := c) (b := false) (add := fun w s k => dropPath (vAddControl c w s k)) (T := c.trainIds) (D := fldVirtual c) hkc (by
      intro w s k hs hk'
      obtain ⟨hx, -⟩ := fldVirtual_labels hw (F := (false, s, k)) (hfc s hs k hk') (hm _ _ _ (hfc s hs k hk'))
      exact vDrop_control hx)
    have eI := writeSources_eq (c := c) (b := true) (add := fun w s k => dropPath (vAddInstrument c w s k)) (T := c.trainIds) (D := fldVirtual c) hki (by
      intro w s k hs hk'
      obtain ⟨hx, -⟩ := fldVirtual_labels hw (F := (true, s, k)) (hfi s hs k hk') (hm _ _ _ (hfi s hs k hk'))
      exact vDrop_instrument hx)
    obtain ⟨w1, f1, f2⟩ := foldE_append.1 hfold
    refine ⟨⟨some c.trainIds, none, some (sortStrs w.sources), none, index, [], w.datasets⟩, ?_⟩
    unfold DC.writeVirtual writeWith
    rw [eC, f1]
    simp only
    rw [eI, f2]
    simp only
    unfold WState.finish
    rw [hindex]

/-! ### One dataset -/

theorem hasField_control {c : DC V} (hn : WellNamed c) {b : Bool} {s k : Str} (hF : HasField c b s k) :
    s ∈ c.controlSources ↔ b = false := by
  cases b with
  | false => simpa using hF.1
  | true =>
    simp only [Bool.true_eq_false, iff_false]
    intro h
    obtain ⟨d, x, -, e⟩ := hn.instrument s (by simpa using hF.1)
    exact hn.control s h (by rw [e]; simp)

/-- C39. For the same files, `get_virtual_dataset` succeeds if and only if there is some data for the field in the selected trains
and, for control data, no train with two entries. Without data it fails with `TypeError`. -/
theorem virtual_dataset_succeeds_iff {c : DC V} (hw : Writable c) (ha : NamesApart c) {b : Bool} {s k : Str}
    (hF : HasField c b s k) (hm : ¬ Mismatch c b s k) :
    ((∃ x, c.getVirtualDataset s k = .ok x) ↔
      HasData c b s k ∧ (b = false → ∀ t ∈ c.trainIds, AtMostOneEntry c b s k t)) ∧
    (¬ HasData c b s k → c.getVirtualDataset s k = .error .type) := by
  obtain ⟨hx, l1, l2⟩ := fldVirtual_labels hw (F := (b, s, k)) hF hm
  simp only at hx l1 l2
  have hcf : c.checkField s k = .ok () := checkField_ok.2 (hasField_available hF)
  have e : ∀ w p, addFld c.trainIds (fldVirtual c) WState.new (b, s, k) = .ok w →
      p = (fldVirtual c (b, s, k)).map (fun _ => dataPath (sectionName b) s k) →
      c.getVirtualDataset s k = finishVirtual c (.ok (w, p)) := by
    intro w p h1 h2
    unfold DC.getVirtualDataset
    rw [hcf]
    simp only
    have := hasField_control hw.named hF
    cases b with
    | false => rw [if_pos (this.2 rfl), vAddControl_eq.2 ⟨hx, h1, h2⟩]
    | true => rw [if_neg (by simp [this]), vAddInstrument_eq.2 ⟨hx, h1, h2⟩]
  have hnone : ¬ HasData c b s k → c.getVirtualDataset s k = .error .type := by
    intro h
    have h0 : fldVirtual c (b, s, k) = none := by
      cases hx : fldVirtual c (b, s, k) with
      | none => rfl
      | some x => exact absurd (l2.1 ⟨x, hx⟩) h
    rw [e WState.new none (by unfold addFld; rw [h0]) (by rw [h0]; rfl)]
    rfl
  refine ⟨⟨?_, ?_⟩, hnone⟩
  · rintro ⟨x, h⟩
    have hD : HasData c b s k := by
      by_contra hn
      rw [hnone hn] at h
      simp at h
    refine ⟨hD, ?_⟩
    rintro rfl
    obtain ⟨y, hy⟩ := l2.2 hD
    refine (l1 y hy).1 ?_
    unfold DC.getVirtualDataset at h
    rw [hcf] at h
    simp only at h
    rw [if_pos ((hasField_control hw.named hF).2 rfl)] at h
    cases hv : vAddControl c WState.new s k with
    | error er => rw [hv] at h; simp [finishVirtual] at h
    | ok wp =>
      obtain ⟨w, p⟩ := wp
      obtain ⟨-, h1, -⟩ := vAddControl_eq.1 hv
      have hi := winv_fold (T := c.trainIds) (D := fldVirtual c) (Fs := [(false, s, k)]) (w := w) (by simp)
        (foldE_cons_ok.2 ⟨w, h1, rfl⟩)
      obtain ⟨ix, hix⟩ := hi.ixAll (false, s, k) (by simp) y hy
      obtain ⟨F', g1, x', g2, g3, g4⟩ := hi.ixFrom _ _ hix
      rw [List.mem_singleton] at g1
      subst g1
      rw [hy] at g2
      obtain rfl := Option.some.inj g2
      simp only [IxOk, Bool.false_eq_true, if_false] at g4
      exact g4.1
  · rintro ⟨hD, h1⟩
    obtain ⟨y, hy⟩ := l2.2 hD
    have hcol : ∀ F ∈ [((b, s, k) : Fld)], ∀ F' ∈ [((b, s, k) : Fld)], ixName F' = ixName F → F'.1 = F.1 := by simp
    obtain ⟨w, hfold⟩ := addFlds_succeed_some (T := c.trainIds) (D := fldVirtual c) hcol (by
      intro F hF' x hx' hb
      rw [List.mem_singleton] at hF'
      subst hF'
      exact (l1 x hx').2 (h1 hb)) (by simp)
    have hi := winv_fold hcol hfold
    obtain ⟨w', hw', hnil⟩ := foldE_cons_ok.1 hfold
    obtain rfl : w' = w := Except.ok.inj hnil
    have hnd := indexes_nodup hfold
    have hnames : ∀ x ∈ w'.indexes, ixName (b, s, k) = x.1 := by
      intro x hx
      obtain ⟨F, h1, -, -, h2, -⟩ := hi.ixFrom x.1 x.2 ((Dict.get?_eq_some_iff hnd).2 hx)
      rw [List.mem_singleton] at h1
      subst h1
      exact h2
    obtain ⟨index, hindex⟩ := writeIndexes_succeed (l := w'.indexes) (by
      intro x hx z hz
      rw [← hnames x hx]
      exact ix_not_trainId hw.named ha hF hz) (by
      unfold Dict.keys at hnd
      rw [List.Nodup, List.pairwise_map] at hnd
      refine List.Pairwise.imp_of_mem ?_ hnd
      intro x x' hx hx' hne
      exact absurd ((hnames x hx).symm.trans (hnames x' hx')) hne)
    have hdata : w'.datasets = [(fldPath (b, s, k), y.1)] := by
      rw [hi.data]
      simp [hy]
    rw [e w' _ hw' rfl, hy]
    simp only [Option.map_some, finishVirtual]
    unfold WState.finish
    rw [hindex]
    simp only [hdata, h5path_dataPath]
    rw [show Dict.get? [(fldPath (b, s, k), y.1)] (fldPath (b, s, k)) = some y.1 by simp [Dict.get?]]
    exact ⟨_, rfl⟩

/-- `exWrite` with control data of two of the three trains can be written with virtual datasets, not with `write`; with two entries in
one train it can not be written with virtual datasets either. -/
example : (({ exWrite with files := [exInst (ch! "a") [1, 2] [0, 2] [2, 1] [10, 11, 12], exInst (ch! "b") [3, 4] [0, 1] [1, 0] [20],
        exCtrl (ch! "c") [1, 2] [0, 1] [1, 1] [31, 32]] } : DC Nat).writeVirtual).toBool = true ∧
    (({ exWrite with files := [exInst (ch! "a") [1, 2] [0, 2] [2, 1] [10, 11, 12], exInst (ch! "b") [3, 4] [0, 1] [1, 0] [20],
        exCtrl (ch! "c") [1, 2] [0, 1] [1, 1] [31, 32]] } : DC Nat).write).toBool = false ∧
    (({ exWrite with files := [exInst (ch! "a") [1, 2] [0, 2] [2, 1] [10, 11, 12], exInst (ch! "b") [3, 4] [0, 1] [1, 0] [20],
        exCtrl (ch! "c") [1, 2] [0, 2] [2, 1] [31, 32, 33]] } : DC Nat).writeVirtual).toBool = false := by
  decide

/-- The hypotheses hold for `exWrite`, which can be written, with each of its fields. -/
example : (∃ h, exWrite.writeVirtual = .ok h) ∧ (∃ x, exWrite.getVirtualDataset (ch! "D:o") (ch! "data.y") = .ok x) := by
  have h : (exWrite.write).toBool = true := by decide
  have hm : ∀ b s k, HasField exWrite b s k → ¬ Mismatch exWrite b s k ∧ HasData exWrite b s k ∧
      (b = false → ∀ t ∈ exWrite.trainIds, OneEntry exWrite b s k t) := by
    apply (write_succeeds_iff exWrite_writable exWrite_apart exWrite_keys).1
    cases hw : exWrite.write with
    | error e => rw [hw] at h; simp [Except.toBool] at h
    | ok x => exact ⟨x, rfl⟩
  have hD : HasField exWrite true (ch! "D:o") (ch! "data.y") := ⟨by decide, [ch! "data.y"], by decide, by decide⟩
  refine ⟨?_, ((virtual_dataset_succeeds_iff exWrite_writable exWrite_apart hD (hm _ _ _ hD).1).1).2
    ⟨(hm _ _ _ hD).2.1, by simp⟩⟩
  refine (write_virtual_succeeds_iff exWrite_writable exWrite_apart exWrite_keys (fun b s k hF => (hm b s k hF).1)).2 ?_
  intro s k hF t ht g hg hh
  rcases exWrite_field hF with ⟨hb, -, -⟩ | ⟨-, rfl, rfl⟩
  · simp at hb
  have key : ∀ g ∈ exWrite.files, ∀ t ∈ [1, 2, 3], (fileEntries g false (ch! "C") (ch! "x.value") t).length ≤ 1 := by decide
  exact key g hg t ht

end KD

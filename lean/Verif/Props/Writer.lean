/- Properties C37-C39: reading back written files. -/
import Verif.Lemmas.WriterData
import Verif.Spec.Write
import Verif.Props.Iterate
import Verif.Props.OrderGaps

set_option linter.unusedSimpArgs false

namespace KD
open Spec

variable {V : Type}

/-! ### Names -/

theorem hasField_available {c : DC V} {b : Bool} {s k : Str} (h : HasField c b s k) : Available c s k := by
  refine ⟨?_, h.2⟩
  have := h.1
  unfold DC.allSources
  cases b <;> simp_all

theorem ixName_instr {c : DC V} (hn : WellNamed c) {F F' : Fld} (hF : HasField c F.1 F.2.1 F.2.2)
    (hF' : HasField c F'.1 F'.2.1 F'.2.2) (h : ixName F' = ixName F) : F'.1 = F.1 := by
  have key : ∀ {A B : Fld}, HasField c A.1 A.2.1 A.2.2 → HasField c B.1 B.2.1 B.2.2 → A.1 = true → B.1 = false →
      ixName A ≠ ixName B := by
    intro A B hA hB a b e
    unfold ixName at e
    rw [a, b] at e
    simp only [if_true, Bool.false_eq_true, if_false] at e
    have h1 := hA.1
    rw [a] at h1
    obtain ⟨d, ch, -, hs⟩ := hn.instrument _ (by simpa using h1)
    have h2 := hB.1
    rw [b] at h2
    have h3 := hn.control _ (by simpa using h2)
    apply h3
    rw [← e, hs]
    simp
  cases h1 : F'.1 <;> cases h2 : F.1
  · rfl
  · exact absurd h.symm (key hF hF' h2 h1)
  · exact absurd h (key hF' hF h1 h2)
  · rfl

theorem srcId_control (s k : Str) : srcId (false, s, k) = controlId s := rfl

theorem srcId_instrument (d ch k : Str) : srcId (true, d ++ ch! ":" ++ ch, k) = instrumentId d ch (partition '.' k).1 := by
  simp [srcId, ixName, instrumentId]

/-- The components of a key. -/
theorem key_comps {parts : List Str} (h : ∀ p ∈ parts, p ≠ [] ∧ '/' ∉ p ∧ '.' ∉ p) :
    replaceCh '.' '/' (joinCh '.' parts) = joinCh '/' parts ∧ comps (joinCh '/' parts) = parts ∧
      replaceCh '/' '.' (joinCh '/' parts) = joinCh '.' parts := by
  refine ⟨joinCh_replace _ (fun p hp => (h p hp).2.2), h5path_joinCh (fun p hp => ⟨(h p hp).1, (h p hp).2.1⟩),
    joinCh_replace _ (fun p hp => (h p hp).2.1)⟩

/-! ### Fields with data -/

theorem fldData_iff {c : DC V} {b : Bool} {s k : Str} (hc : NoConflict c.files) (hv : FollowsIn c c.trainIds b s k) :
    (∃ x, fldData c (b, s, k) = some x) ↔ ∃ a, c.getArray s k id = .ok a ∧ HasData c b s k := by
  unfold fldData
  dsimp only
  cases ha : c.getArray s k id with
  | error e => simp
  | ok a =>
    obtain ⟨h1, h2, h3⟩ := get_array_follows hc hv ha
    have hmem : ∀ t, labelled a t ≠ [] → HasData c b s k := by
      intro t ht
      have h4 : ¬ (t ∉ c.trainIds ∨ ∀ f ∈ c.files, Holds f s → t ∉ f.trainIds) := fun h => ht (h3 t h)
      push Not at h4
      obtain ⟨h5, f, h6, h7, h8⟩ := h4
      have := h2 t h5 f h6 h7 h8
      rw [List.map_id] at this
      exact ⟨t, h5, f, h6, h7, by rw [← this]; exact ht⟩
    constructor
    · rintro ⟨x, hx⟩
      refine ⟨a, rfl, ?_⟩
      obtain ⟨-, chunks, -, -, g1, g2, -⟩ := getArray_ok ha
      cases hco : a.coords with
      | none => simp [hco] at hx
      | some tids =>
        have hne : tids ≠ [] := by
          rintro rfl
          have hl : a.rows = [] := by
            unfold AllLabelled at h1
            rw [hco] at h1
            exact List.eq_nil_of_length_eq_zero h1.symm
          obtain ⟨-, chunks', e1, e2, -, e4, -⟩ := getArray_ok ha
          have hfull := fullChunks_gaps hc hv (checkField_ok.1 (getArray_ok ha).1).1 e1
          have e2 := e2 hfull
          have h5 : (chunks'.map (fun ch => ch.counts.sum)).sum = 0 := by
            apply sum_eq_zero_of
            intro n hn
            obtain ⟨ch, hm, rfl⟩ := List.mem_map.1 hn
            rw [← hfull ch hm]
            rw [List.map_id, hl] at e2
            have := List.flatMap_eq_nil_iff.1 e2.symm ch hm
            rw [this]; rfl
          rw [e4.2 h5] at hco
          simp at hco
        obtain ⟨t, tids', rfl⟩ := List.exists_cons_of_ne_nil hne
        apply hmem t
        unfold AllLabelled at h1
        unfold labelled
        rw [hco] at h1 ⊢
        simp only [Option.getD_some] at h1 ⊢
        cases hr : a.rows with
        | nil => rw [hr] at h1; simp at h1
        | cons v vs => simp
    · rintro ⟨a', -, t, ht, g, hg, hh, hne⟩
      have htg : t ∈ g.trainIds := by
        by_contra h
        exact hne (fileEntries_notMem h)
      have h4 := h2 t ht g hg hh htg
      rw [List.map_id] at h4
      cases hco : a.coords with
      | none =>
        exfalso
        apply hne
        rw [← h4]
        simp [labelled, hco]
      | some tids => exact ⟨(⟨a.rows, a.rowShape, a.dtype⟩, tids), by simp [hco]⟩


/-! ### The written file -/

theorem toNat_ofNat_map {l : List Nat} (h : ∀ n ∈ l, n < 2 ^ 64) : (l.map (BitVec.ofNat 64)).map BitVec.toNat = l := by
  rw [List.map_map]
  conv_rhs => rw [← List.map_id l]
  apply List.map_congr_left
  intro n hn
  simp only [Function.comp, BitVec.toNat_ofNat, id]
  exact Nat.mod_eq_of_lt (h n hn)

theorem index_small {T L firsts counts : List Nat} (hi : IndexFor T L firsts counts) (hL : L.length < 2 ^ 64) :
    (∀ n ∈ firsts, n < 2 ^ 64) ∧ (∀ n ∈ counts, n < 2 ^ 64) := by
  have hl : firsts.length = counts.length := by rw [hi.firstsLength, hi.countsLength]
  constructor
  · intro n hn
    obtain ⟨i, hlt, rfl⟩ := List.mem_iff_getElem.1 hn
    have := hi.inside i firsts[i] (counts[i]'(by omega)) (List.getElem?_eq_getElem hlt) (List.getElem?_eq_getElem _)
    omega
  · intro n hn
    obtain ⟨i, hlt, rfl⟩ := List.mem_iff_getElem.1 hn
    have := hi.inside i (firsts[i]'(by omega)) counts[i] (List.getElem?_eq_getElem _) (List.getElem?_eq_getElem hlt)
    omega

/-- What is read back from a written file, where the labels of each array are selected trains. -/
theorem file_read_labels {c : DC V} (hnamed : WellNamed c) (htrains : c.trainIds.Pairwise (· < ·)) (hnonzero : 0 ∉ c.trainIds)
    (hgroup : ∀ b s k, HasField c b s k → c.keyGroup s k = groupName b k)
    (hlabels : ∀ b s k a, HasField c b s k → c.getArray s k id = .ok a →
      AllLabelled a ∧ (∀ t, t ∉ c.trainIds → labelled a t = []) ∧ (a.coords ≠ none → c.trainIds ≠ []))
    {Fs : List Fld} {w : WState V} {h : H5File V} (name : Str)
    (hFs : ∀ F ∈ Fs, HasField c F.1 F.2.1 F.2.2)
    (hfold : foldE (addFld c.trainIds (fldData c)) WState.new Fs = .ok w) (hfin : w.finish c.trainIds = .ok h)
    (hsize : ∀ p ∈ h.datasets, p.2.rows.length < 2 ^ 64) :
    ∃ f, FileAccess.init name h none = .ok f ∧ f.trainIds = c.trainIds ∧
      (∀ s, s ∈ f.controlSources ↔ ∃ k, (false, s, k) ∈ Fs ∧ ∃ x, fldData c (false, s, k) = some x) ∧
      (∀ s, s ∈ f.instrumentSources ↔ ∃ k, (true, s, k) ∈ Fs ∧ ∃ x, fldData c (true, s, k) = some x) ∧
      (∀ b s k0, (b, s, k0) ∈ Fs → (∃ x, fldData c (b, s, k0) = some x) → ∃ ks, f.getKeys s = .ok ks ∧ ks.Nodup ∧
        ∀ k, k ∈ ks ↔ (b, s, k) ∈ Fs ∧ ∃ x, fldData c (b, s, k) = some x) ∧
      (∀ b s k x, (b, s, k) ∈ Fs → fldData c (b, s, k) = some x →
        ValidField f b s k ∧ StartsAtZero f b s k ∧ f.dataset (sectionName b) s k = .ok x.1 ∧
        x.2.length = x.1.rows.length ∧
        ∀ t, fileEntries f b s k t = (((x.2.insertionSort (· ≤ ·)).zip x.1.rows).filter (fun y => y.1 = t)).map Prod.snd) := by
  have hcol : ∀ F ∈ Fs, ∀ F' ∈ Fs, ixName F' = ixName F → F'.1 = F.1 := fun F hF F' hF' e =>
    ixName_instr hnamed (hFs F hF) (hFs F' hF') e
  have hi := winv_fold hcol hfold
  obtain ⟨f1, f2, f3, f4, f5, f6⟩ := finish_ok hfin
  obtain ⟨x1, x2⟩ := writeIndexes_ok f6
  -- sources
  have hids : sourceIds h = some (sortStrs w.sources) := by unfold sourceIds; rw [f2]; exact f3
  have hmem : ∀ id, id ∈ sortStrs w.sources ↔ ∃ F ∈ Fs, (∃ x, fldData c F = some x) ∧ srcId F = id := by
    intro id
    rw [← hi.srcs]
    exact (List.perm_insertionSort _ _).mem_iff
  have hinst : ∀ s k, HasField c true s k → ∃ d ch, PlainParts d ch ∧ s = d ++ ch! ":" ++ ch := by
    intro s k hF
    exact hnamed.instrument s (by simpa using hF.1)
  have hgood : ∀ id ∈ sortStrs w.sources, GoodId id := by
    intro id hid
    obtain ⟨⟨b, s, k⟩, hF, -, rfl⟩ := (hmem id).1 hid
    have hF1 := hFs _ hF
    cases b with
    | false => exact Or.inr (Or.inl ⟨s, srcId_control s k⟩)
    | true =>
      obtain ⟨d, ch, hp, rfl⟩ := hinst s k hF1
      exact Or.inr (Or.inr ⟨d, ch, _, hp, srcId_instrument d ch k⟩)
  obtain ⟨f, o1, o2, o3, -, -⟩ := open_sources (name := name) f1 hids hgood
  obtain ⟨-, ofile, otrains⟩ := open_train_ids o1 f1
  have htr : f.trainIds = c.trainIds := by
    rw [otrains]
    apply List.filter_eq_self.2
    intro t ht
    have : t ≠ 0 := fun e => hnonzero (e ▸ ht)
    simpa using this
  have hctl : ∀ s, s ∈ f.controlSources ↔ ∃ k, (false, s, k) ∈ Fs ∧ ∃ x, fldData c (false, s, k) = some x := by
    intro s
    rw [o2, hmem]
    constructor
    · rintro ⟨⟨b, s', k⟩, hF, hx, e⟩
      have hF1 := hFs _ hF
      cases b with
      | false =>
        rw [srcId_control] at e
        obtain rfl := controlId_inj e
        exact ⟨k, hF, hx⟩
      | true =>
        obtain ⟨d, ch, hp, rfl⟩ := hinst s' k hF1
        rw [srcId_instrument] at e
        exact absurd e.symm (controlId_ne_instrumentId _ _ _ _)
    · rintro ⟨k, hF, hx⟩
      exact ⟨_, hF, hx, srcId_control s k⟩
  have hins : ∀ s, s ∈ f.instrumentSources ↔ ∃ k, (true, s, k) ∈ Fs ∧ ∃ x, fldData c (true, s, k) = some x := by
    intro s
    rw [o3]
    constructor
    · rintro ⟨d, ch, g, hp, rfl, hid⟩
      obtain ⟨⟨b, s', k⟩, hF, hx, e⟩ := (hmem _).1 hid
      have hF1 := hFs _ hF
      cases b with
      | false => exact absurd e (controlId_ne_instrumentId _ _ _ _)
      | true =>
        obtain ⟨d', ch', hp', rfl⟩ := hinst s' k hF1
        rw [srcId_instrument] at e
        obtain ⟨rfl, rfl, -⟩ := instrumentId_inj hp' hp e
        exact ⟨k, hF, hx⟩
    · rintro ⟨k, hF, hx⟩
      obtain ⟨d, ch, hp, rfl⟩ := hinst s k (hFs _ hF)
      exact ⟨d, ch, _, hp, rfl, (hmem _).2 ⟨_, hF, hx, srcId_instrument d ch k⟩⟩
  -- datasets
  have hdk : ∀ p, p ∈ h.datasets ↔ ∃ F ∈ Fs, ∃ x, fldData c F = some x ∧ p = (fldPath F, x.1) := by
    intro p
    rw [f5, hi.data, List.mem_filterMap]
    constructor
    · rintro ⟨F, hF, e⟩
      rw [Option.map_eq_some_iff] at e
      obtain ⟨x, e1, e2⟩ := e
      exact ⟨F, hF, x, e1, e2.symm⟩
    · rintro ⟨F, hF, x, e1, e2⟩
      exact ⟨F, hF, by rw [e1, e2]; rfl⟩
  have hdn : h.datasets.keys.Nodup := by
    rw [f5]
    unfold Dict.keys
    rw [List.Nodup, List.pairwise_map]
    apply hi.noClash.imp
    intro a b hab e
    rw [e, pathClash_self] at hab
    simp at hab
  have hds : ∀ b s k x, (b, s, k) ∈ Fs → fldData c (b, s, k) = some x → f.dataset (sectionName b) s k = .ok x.1 := by
    intro b s k x hF hx
    unfold FileAccess.dataset
    rw [dataset_path, ofile, h5path_single (plain_section b).2 (plain_section b).1]
    have : h.datasets.get? (fldPath (b, s, k)) = some x.1 :=
      (Dict.get?_eq_some_iff hdn).2 ((hdk _).2 ⟨(b, s, k), hF, x, hx, rfl⟩)
    rw [show [sectionName b] ++ h5path s ++ h5path (replaceCh '.' '/' k) = fldPath (b, s, k) from rfl, this]
    rfl
  have hcat : ∀ b s k, (b, s, k) ∈ Fs → (∃ x, fldData c (b, s, k) = some x) →
      if b then s ∈ f.instrumentSources ∧ s ∉ f.controlSources else s ∈ f.controlSources ∧ s ∉ f.instrumentSources := by
    intro b s k hF hx
    have hno : ∀ k k', HasField c true s k → HasField c false s k' → False := by
      intro k k' h1 h2
      obtain ⟨d, ch, -, rfl⟩ := hinst s k h1
      exact hnamed.control _ (by simpa using h2.1) (by simp)
    cases b with
    | false =>
      simp only [Bool.false_eq_true, if_false]
      refine ⟨(hctl s).2 ⟨k, hF, hx⟩, fun h => ?_⟩
      obtain ⟨k', h1, -⟩ := (hins s).1 h
      exact hno k' k (hFs _ h1) (hFs _ hF)
    | true =>
      simp only [if_true]
      refine ⟨(hins s).2 ⟨k, hF, hx⟩, fun h => ?_⟩
      obtain ⟨k', h1, -⟩ := (hctl s).1 h
      exact hno k k' (hFs _ hF) (hFs _ h1)
  refine ⟨f, o1, htr, hctl, hins, ?_, ?_⟩
  · -- keys
    intro b s k0 hF0 hx0
    have hc0 := hcat b s k0 hF0 hx0
    have hs : s ∈ f.controlSources ∨ s ∈ f.instrumentSources := by
      cases b
      · simp at hc0; exact Or.inl hc0.1
      · simp at hc0; exact Or.inr hc0.1
    have hsec : f.sectionOf s = sectionName b := by
      unfold FileAccess.sectionOf
      cases b
      · simp at hc0; simp [hc0.1, sectionName]
      · simp at hc0; simp [hc0.2, sectionName]
    obtain ⟨kk1, kk2⟩ := keys_exact hs
    rw [hsec, ofile] at kk1 kk2
    have hin : ∀ k x, (b, s, k) ∈ Fs → fldData c (b, s, k) = some x → ∃ parts : Path, parts ≠ [] ∧
        sectionName b :: (comps s ++ parts) ∈ h.datasets.keys ∧ k = replaceCh '/' '.' (joinCh '/' parts) := by
      intro k x hF hx
      obtain ⟨parts, p1, p2, rfl⟩ := hnamed.keys b s k (hFs _ hF)
      obtain ⟨q1, q2, q3⟩ := key_comps p2
      refine ⟨parts, p1, ?_, q3.symm⟩
      refine List.mem_map.2 ⟨_, (hdk _).2 ⟨_, hF, x, hx, rfl⟩, ?_⟩
      simp only [fldPath, q1, q2]
    cases hks : f.getKeys s with
    | error e =>
      exfalso
      obtain ⟨x0, hx0⟩ := hx0
      obtain ⟨parts, p1, p2, -⟩ := hin k0 x0 hF0 hx0
      exact (kk2 e hks).2.2 parts p1 p2
    | ok ks =>
      obtain ⟨n1, n2⟩ := kk1 ks hks
      refine ⟨ks, rfl, n1, fun k => ?_⟩
      rw [n2]
      constructor
      · rintro ⟨path, p1, p2, rfl⟩
        obtain ⟨kv, hkv, e⟩ := List.mem_map.1 p2
        obtain ⟨⟨b', s', k'⟩, hF', x, hx, rfl⟩ := (hdk _).1 hkv
        have hF1 := hFs _ hF'
        simp only [fldPath, List.cons.injEq] at e
        obtain ⟨e1, e2⟩ := e
        have hb : b' = b := by cases b <;> cases b' <;> simp [sectionName] at e1 ⊢
        subst hb
        obtain ⟨parts, r1, r2, rfl⟩ := hnamed.keys b' s' k' hF1
        obtain ⟨q1, q2, q3⟩ := key_comps r2
        have hss : s = s' := by
          rcases List.prefix_or_prefix_of_prefix (l₁ := comps s) (l₂ := comps s') ⟨path, rfl⟩
            ⟨_, e2⟩ with hp | hp
          · exact hnamed.apart b' s k0 s' _ (hFs _ hF0) hF1 hp
          · exact (hnamed.apart b' s' _ s k0 hF1 (hFs _ hF0) hp).symm
        subst hss
        have e3 := List.append_cancel_left e2
        rw [q1, q2] at e3
        subst e3
        rw [q3]
        exact ⟨hF', x, hx⟩
      · rintro ⟨hF, x, hx⟩
        exact hin k x hF hx
  · -- fields
    intro b s k x hFm hx
    have hF : HasField c b s k := hFs _ hFm
    have hdset := hds b s k x hFm hx
    obtain ⟨a, ha1, ha2, ha3⟩ := fldData_some hx
    have hav := hasField_available hF
    -- the index written for the group
    obtain ⟨ix, hix⟩ := hi.ixAll _ hFm x hx
    obtain ⟨⟨b', s', k'⟩, hF', x', hx', hname, hok⟩ := hi.ixFrom _ ix hix
    have hF' : HasField c b' s' k' := hFs _ hF'
    have hb : b' = b := ixName_instr hnamed hF hF' hname
    subst hb
    have hgrp : s' = s ∧ groupName b' k' = groupName b' k := by
      cases b' with
      | false => exact ⟨hname, rfl⟩
      | true =>
        obtain ⟨d, ch, hp, rfl⟩ := hinst s k hF
        obtain ⟨d', ch', hp', rfl⟩ := hinst s' k' hF'
        have : srcId (true, d' ++ ch! ":" ++ ch', k') = srcId (true, d ++ ch! ":" ++ ch, k) := by
          unfold srcId; rw [hname]
        rw [srcId_instrument, srcId_instrument] at this
        obtain ⟨rfl, rfl, e⟩ := instrumentId_inj hp' hp this
        exact ⟨rfl, by simp only [groupName, if_true]; exact e⟩
    obtain ⟨rfl, hgrp⟩ := hgrp
    obtain ⟨a', ha1', ha2', -⟩ := fldData_some hx'
    have hlab : x'.2 = x.2 := by
      have := group_labels (c := c) (source := s') (key := k) (key' := k')
        (by rw [hgroup _ _ _ hF, hgroup _ _ _ hF', hgrp]) ha1 ha1'
      rw [ha2, ha2'] at this
      simpa using this
    rw [hlab] at hok
    have hcounts := ixOk_counts hok
    -- the labels
    obtain ⟨l1, l3, l4⟩ := hlabels _ _ _ a hF ha1
    have hlen : x.2.length = x.1.rows.length := by
      unfold AllLabelled at l1
      rw [ha2] at l1
      rw [ha3]
      simpa using l1
    have hsub : ∀ t ∈ x.2, t ∈ c.trainIds := by
      intro t ht
      by_contra hnt
      have := l3 t hnt
      unfold labelled at this
      rw [ha2, Option.getD_some, List.map_eq_nil_iff, List.filter_eq_nil_iff] at this
      obtain ⟨i, hlt, rfl⟩ := List.mem_iff_getElem.1 ht
      have hlt' : i < a.rows.length := by rw [ha3] at hlen; simp only at hlen; omega
      have hm : (x.2[i], a.rows[i]) ∈ x.2.zip a.rows := by
        have : (x.2.zip a.rows)[i]'(by simp; omega) = (x.2[i], a.rows[i]) := by simp
        rw [← this]; exact List.getElem_mem _
      exact this _ hm (by simp)
    have hfor := indexFor_counts htrains (List.pairwise_insertionSort (· ≤ ·) x.2)
      (fun t ht => hsub t ((List.perm_insertionSort (· ≤ ·) x.2).mem_iff.1 ht))
    have hcnt : c.trainIds.map (fun t => (x.2.insertionSort (· ≤ ·)).count t) = c.trainIds.map (fun t => x.2.count t) :=
      List.map_congr_left (fun t _ => (List.perm_insertionSort (· ≤ ·) x.2).count_eq t)
    rw [hcnt] at hfor
    have hslen : (x.2.insertionSort (· ≤ ·)).length = x.2.length := List.length_insertionSort _ _
    have hsz : (x.2.insertionSort (· ≤ ·)).length < 2 ^ 64 := by
      rw [hslen, hlen]
      exact hsize _ ((hdk _).2 ⟨_, hFm, x, hx, rfl⟩)
    obtain ⟨sm1, sm2⟩ := index_small hfor hsz
    -- reading the index
    have hget : f.getIndex s' (groupName b' k) = .ok (exclSums 0 (c.trainIds.map (fun t => x.2.count t)),
        c.trainIds.map (fun t => x.2.count t)) := by
      have hpath : h5path (ch! "INDEX/" ++ ixName (b', s', k)) = ch! "INDEX" :: (comps s' ++ comps (groupName b' k)) := by
        have e0 : ∀ s : Str, h5path (ch! "INDEX/" ++ s) = ch! "INDEX" :: h5path s := by
          intro s
          have : ch! "INDEX/" ++ s = ch! "INDEX" ++ '/' :: s := by simp
          rw [this, h5path_append, h5path_single (by decide) (by decide)]
          rfl
        rw [e0]
        cases b' with
        | false => simp [ixName, groupName, comps, h5path_nil]
        | true =>
          have : ixName (true, s', k) = s' ++ '/' :: (partition '.' k).1 := by simp [ixName]
          rw [this, h5path_append]
          simp [groupName, comps]
      have hixf : f.file.index.get? (ch! "INDEX" :: (comps s' ++ comps (groupName b' k))) = some (indexGroup ix) := by
        rw [ofile, ← hpath]
        apply (Dict.get?_eq_some_iff x2).2
        rw [x1]
        exact List.mem_map.2 ⟨_, Dict.mem_of_get? hix, rfl⟩
      rw [getIndex_count hixf rfl rfl, htr, hcounts]
      simp only
      rw [List.take_of_length_le (by simp [exclSums_length]), List.take_of_length_le (by simp),
        toNat_ofNat_map sm1, toNat_ofNat_map sm2]
    have hent : ∀ t, fileEntries f b' s' k t = (((x.2.insertionSort (· ≤ ·)).zip x.1.rows).filter (fun y => y.1 = t)).map Prod.snd := by
      intro t
      unfold fileEntries
      rw [hget, hdset]
      simp only
      rw [htr]
      exact hfor.entries x.1.rows (by rw [hslen]; exact hlen.symm) t
    have hTne : c.trainIds ≠ [] := l4 (by rw [ha2]; simp)
    refine ⟨⟨by rw [htr]; exact htrains, by rw [htr]; exact hTne, hcat b' s' k hFm ⟨x, hx⟩, _, _, x.1, hget, hdset, ?_, ?_,
      hfor.contiguous, ?_⟩, ⟨_, _, hget, hfor.start hTne⟩, hdset, hlen, hent⟩
    · rw [htr]; exact hfor.firstsLength
    · rw [htr]; exact hfor.countsLength
    · rw [← hlen, ← hslen]; exact hfor.inside

theorem file_read_any {c : DC V} (hw : Storable c) {Fs : List Fld} {w : WState V} {h : H5File V} (name : Str)
    (hFs : ∀ F ∈ Fs, HasField c F.1 F.2.1 F.2.2)
    (hfold : foldE (addFld c.trainIds (fldData c)) WState.new Fs = .ok w) (hfin : w.finish c.trainIds = .ok h)
    (hsize : ∀ p ∈ h.datasets, p.2.rows.length < 2 ^ 64) :
    ∃ f, FileAccess.init name h none = .ok f ∧ f.trainIds = c.trainIds ∧
      (∀ s, s ∈ f.controlSources ↔ ∃ k, (false, s, k) ∈ Fs ∧ ∃ x, fldData c (false, s, k) = some x) ∧
      (∀ s, s ∈ f.instrumentSources ↔ ∃ k, (true, s, k) ∈ Fs ∧ ∃ x, fldData c (true, s, k) = some x) ∧
      (∀ b s k0, (b, s, k0) ∈ Fs → (∃ x, fldData c (b, s, k0) = some x) → ∃ ks, f.getKeys s = .ok ks ∧ ks.Nodup ∧
        ∀ k, k ∈ ks ↔ (b, s, k) ∈ Fs ∧ ∃ x, fldData c (b, s, k) = some x) ∧
      (∀ b s k x, (b, s, k) ∈ Fs → fldData c (b, s, k) = some x →
        ValidField f b s k ∧ StartsAtZero f b s k ∧ f.dataset (sectionName b) s k = .ok x.1 ∧
        x.2.length = x.1.rows.length ∧
        ∀ t, fileEntries f b s k t = (((x.2.insertionSort (· ≤ ·)).zip x.1.rows).filter (fun y => y.1 = t)).map Prod.snd) := by
  refine file_read_labels hw.named hw.trains hw.nonzero (fun b s k hF => keyGroup_follows (hw.valid b s k hF) (hasField_available hF).1)
    (fun b s k a hF ha => ?_) name hFs hfold hfin hsize
  have hv := hw.valid b s k hF
  obtain ⟨l1, l2, l3⟩ := get_array_follows hw.noConflict hv ha
  refine ⟨l1, fun t ht => l3 t (.inl ht), fun hco => ?_⟩
  obtain ⟨tids, hco⟩ := Option.ne_none_iff_exists'.1 hco
  obtain ⟨-, -, t, ht, -⟩ := (fldData_iff hw.noConflict hv).1 ⟨_, show fldData c (b, s, k) = some (⟨a.rows, a.rowShape, a.dtype⟩, tids) by
    simp [fldData, ha, hco]⟩
  intro e; rw [e] at ht; simp at ht

/-- What is read back if the labels are in order. -/
theorem file_read {c : DC V} (hw : Writable c) {Fs : List Fld} {w : WState V} {h : H5File V} (name : Str)
    (hFs : ∀ F ∈ Fs, HasField c F.1 F.2.1 F.2.2)
    (hfold : foldE (addFld c.trainIds (fldData c)) WState.new Fs = .ok w) (hfin : w.finish c.trainIds = .ok h)
    (hsize : ∀ p ∈ h.datasets, p.2.rows.length < 2 ^ 64) :
    ∃ f, FileAccess.init name h none = .ok f ∧ f.trainIds = c.trainIds ∧
      (∀ s, s ∈ f.controlSources ↔ ∃ k, (false, s, k) ∈ Fs ∧ ∃ x, fldData c (false, s, k) = some x) ∧
      (∀ s, s ∈ f.instrumentSources ↔ ∃ k, (true, s, k) ∈ Fs ∧ ∃ x, fldData c (true, s, k) = some x) ∧
      (∀ b s k0, (b, s, k0) ∈ Fs → (∃ x, fldData c (b, s, k0) = some x) → ∃ ks, f.getKeys s = .ok ks ∧ ks.Nodup ∧
        ∀ k, k ∈ ks ↔ (b, s, k) ∈ Fs ∧ ∃ x, fldData c (b, s, k) = some x) ∧
      (∀ b s k x, (b, s, k) ∈ Fs → fldData c (b, s, k) = some x →
        ValidField f b s k ∧ StartsAtZero f b s k ∧ f.dataset (sectionName b) s k = .ok x.1 ∧
        ∀ t, fileEntries f b s k t = ((x.2.zip x.1.rows).filter (fun y => y.1 = t)).map Prod.snd) := by
  obtain ⟨f, h1, h2, h3, h4, h5, h6⟩ := file_read_any hw.toStorable name hFs hfold hfin hsize
  refine ⟨f, h1, h2, h3, h4, h5, fun b s k x hFm hx => ?_⟩
  obtain ⟨g1, g2, g3, -, g4⟩ := h6 b s k x hFm hx
  have hF : HasField c b s k := hFs _ hFm
  obtain ⟨a, ha1, ha2, -⟩ := fldData_some hx
  have hord := (get_array_order_gaps hw.noConflict (hw.valid b s k hF) ha1).2 (hw.inOrder b s k hF)
  rw [ha2, Option.getD_some] at hord
  rw [hord.insertionSort_eq] at g4
  exact ⟨g1, g2, g3, g4⟩

/-! ### C37 -/

/-- From the labels of the array to the entries of the files. -/
theorem sameEntries_of {c : DC V} {f : FileAccess V} {b : Bool} {s k : Str} {x : Dataset V × List Nat}
    (hc : NoConflict c.files) (hv : FollowsIn c c.trainIds b s k) (hx : fldData c (b, s, k) = some x)
    (he : ∀ t, fileEntries f b s k t = ((x.2.zip x.1.rows).filter (fun y => y.1 = t)).map Prod.snd) :
    SameEntries c f b s k := by
  obtain ⟨a, ha1, ha2, ha3⟩ := fldData_some hx
  obtain ⟨-, l2, l3⟩ := get_array_follows hc hv ha1
  have hl : ∀ t, fileEntries f b s k t = labelled a t := by
    intro t
    rw [he, ha3]
    unfold labelled
    rw [ha2]
    rfl
  intro t ht
  constructor
  · intro g hg hh htg
    rw [hl, l2 t ht g hg hh htg, List.map_id]
  · intro hno
    rw [hl]
    apply l3 t
    right
    intro g hg hh htg
    exact hno ⟨g, hg, hh, htg⟩

/-- Shape of the entries and data type are those of the original files. -/
def SameType (c : DC V) (f : FileAccess V) (instr : Bool) (source key : Str) : Prop :=
  ∃ d, f.dataset (sectionName instr) source key = .ok d ∧ ∀ g ∈ c.files, Holds g source →
    ∃ e, g.dataset (sectionName instr) source key = .ok e ∧ d.rowShape = e.rowShape ∧ d.dtype = e.dtype

theorem sameType_of {c : DC V} {f : FileAccess V} {b : Bool} {s k : Str} {x : Dataset V × List Nat}
    (hc : NoConflict c.files) (hv : FollowsIn c c.trainIds b s k) (hx : fldData c (b, s, k) = some x)
    (hd : f.dataset (sectionName b) s k = .ok x.1) : SameType c f b s k := by
  obtain ⟨a, ha1, ha2, ha3⟩ := fldData_some hx
  have hav : Available c s k := checkField_ok.1 (getArray_ok ha1).1
  obtain ⟨m1, m2⟩ := get_array_mismatch_gaps id hc hv hav
  refine ⟨x.1, hd, ?_⟩
  intro g hg hh
  by_cases hm : Mismatch c b s k
  · rw [m1 hm] at ha1; simp at ha1
  · obtain ⟨a', e1, e2⟩ := m2 hm
    rw [ha1] at e1
    obtain rfl := Except.ok.inj e1
    obtain ⟨e, e3, e4, e5⟩ := e2 g hg hh
    exact ⟨e, e3, by rw [ha3]; exact e4, by rw [ha3]; exact e5⟩

/-- C37, partial. If writing a collection succeeds, the new file can be opened, and has the same trains, sources and
keys, and for each of them valid fields with the same entries for every train. The conditions (`Writable`) are: readable
files without conflicts, increasing train IDs, the usual names. Missing from the full property: files with interleaved
trains, for which it is false (`write_interleaved_wrong`). -/
theorem write_read_partial {c : DC V} {h : H5File V} (name : Str) (hw : Writable c) (hwr : c.write = .ok h)
    (hkeys : ∀ s ∈ c.allSources, ∃ k, Available c s k) (hsize : ∀ p ∈ h.datasets, p.2.rows.length < 2 ^ 64) :
    ∃ f, FileAccess.init name h none = .ok f ∧ f.trainIds = c.trainIds ∧
      (∀ s, s ∈ f.controlSources ↔ s ∈ c.controlSources) ∧
      (∀ s, s ∈ f.instrumentSources ↔ s ∈ c.instrumentSources) ∧
      (∀ s ∈ c.allSources, ∃ ks, f.getKeys s = .ok ks ∧ ks.Nodup ∧ ∀ k, k ∈ ks ↔ Available c s k) ∧
      (∀ b s k, HasField c b s k → ValidField f b s k ∧ StartsAtZero f b s k ∧ SameType c f b s k ∧
        SameEntries c f b s k) := by
  obtain ⟨Fs, w, hFs, hfold, hfin⟩ := write_ok hwr
  obtain ⟨f, h1, h2, h3, h4, h5, h6⟩ := file_read hw name (fun F hF => (hFs F).1 hF) hfold hfin hsize
  have hdata : ∀ b s k, HasField c b s k → ∃ x, fldData c (b, s, k) = some x := fun b s k hF => by
    obtain ⟨x, hx, -⟩ := write_hasData hwr hF
    exact ⟨x, hx⟩
  have hmem : ∀ b s k, (b, s, k) ∈ Fs ↔ HasField c b s k := fun b s k => hFs (b, s, k)
  have hfield : ∀ b s, (if b then s ∈ c.instrumentSources else s ∈ c.controlSources) → ∃ k, HasField c b s k := by
    intro b s hs
    have : s ∈ c.allSources := by unfold DC.allSources; cases b <;> simp_all
    obtain ⟨k, hk⟩ := hkeys s this
    exact ⟨k, hs, hk.2⟩
  refine ⟨f, h1, h2, ?_, ?_, ?_, ?_⟩
  · intro s
    rw [h3]
    constructor
    · rintro ⟨k, hk, -⟩; simpa using ((hmem _ _ _).1 hk).1
    · intro hs
      obtain ⟨k, hk⟩ := hfield false s (by simpa using hs)
      exact ⟨k, (hmem _ _ _).2 hk, hdata _ _ _ hk⟩
  · intro s
    rw [h4]
    constructor
    · rintro ⟨k, hk, -⟩; simpa using ((hmem _ _ _).1 hk).1
    · intro hs
      obtain ⟨k, hk⟩ := hfield true s (by simpa using hs)
      exact ⟨k, (hmem _ _ _).2 hk, hdata _ _ _ hk⟩
  · intro s hs
    have : ∃ b : Bool, if b then s ∈ c.instrumentSources else s ∈ c.controlSources := by
      unfold DC.allSources at hs
      rcases List.mem_append.1 (List.mem_dedup.1 hs) with h | h
      · exact ⟨false, by simpa using h⟩
      · exact ⟨true, by simpa using h⟩
    obtain ⟨b, hb⟩ := this
    obtain ⟨k0, hk0⟩ := hfield b s hb
    obtain ⟨ks, g1, g2, g3⟩ := h5 b s k0 ((hmem _ _ _).2 hk0) (hdata _ _ _ hk0)
    refine ⟨ks, g1, g2, fun k => ?_⟩
    rw [g3, hmem]
    constructor
    · rintro ⟨hF, -⟩; exact hasField_available hF
    · intro ha
      have hF : HasField c b s k := ⟨hb, ha.2⟩
      exact ⟨hF, hdata _ _ _ hF⟩
  · intro b s k hF
    obtain ⟨x, hx⟩ := hdata b s k hF
    obtain ⟨g1, g2, g3, g4⟩ := h6 b s k x ((hmem _ _ _).2 hF) hx
    exact ⟨g1, g2, sameType_of hw.noConflict (hw.valid b s k hF) hx g3,
      sameEntries_of hw.noConflict (hw.valid b s k hF) hx g4⟩

/-! ### C39 -/

/-- Whenever `write` succeeds and the data are as long as the index says, `write_virtual` makes the same file. -/
theorem virtual_equals_copy_full {c : DC V} {h : H5File V}
    (hfull : ∀ b s k x, HasField c b s k → fldData c (b, s, k) = some x →
      ∀ chunks, c.sortedChunks s k = .ok chunks → FullChunks chunks) (hwr : c.write = .ok h) : c.writeVirtual = .ok h := by
  have hC : ∀ w s k w', HasField c false s k → addControl c w s k = .ok w' → dropPath (vAddControl c w s k) = .ok w' := by
    intro w s k w' hF h
    obtain ⟨h1, x, h2, -⟩ := addControl_ok h
    obtain ⟨h3, h4⟩ := fldVirtual_data h2 (hfull _ s k x hF h2)
    refine dropPath_ok.2 ⟨_, vAddControl_eq.2 ⟨⟨_, h3⟩, ?_, rfl⟩⟩
    unfold addFld at h1 ⊢
    rw [h4]
    rw [h2] at h1
    exact h1
  have hI : ∀ w s k w', HasField c true s k → addInstrument c w s k = .ok w' → dropPath (vAddInstrument c w s k) = .ok w' := by
    intro w s k w' hF h
    obtain ⟨h1, x, h2⟩ := addInstrument_ok h
    obtain ⟨h3, h4⟩ := fldVirtual_data h2 (hfull _ s k x hF h2)
    refine dropPath_ok.2 ⟨_, vAddInstrument_eq.2 ⟨⟨_, h3⟩, ?_, rfl⟩⟩
    unfold addFld at h1 ⊢
    rw [h4]
    rw [h2] at h1
    exact h1
  have hS : ∀ {add add' : WState V → Str → Str → R (WState V)} (b : Bool),
      (∀ w s k w', HasField c b s k → add w s k = .ok w' → add' w s k = .ok w') →
      ∀ w s w', (if b then s ∈ c.instrumentSources else s ∈ c.controlSources) →
        writeSource c add w s = .ok w' → writeSource c add' w s = .ok w' := by
    intro add add' b hadd w s w' hs h
    unfold writeSource at h ⊢
    cases hk : c.keysForSource s with
    | error e => rw [hk] at h; simp at h
    | ok ks =>
      rw [hk] at h
      exact foldE_mono (fun w k r hm => hadd w s k r ⟨hs, ks, hk, hm⟩) h
  unfold DC.write writeWith at hwr
  unfold DC.writeVirtual writeWith
  split at hwr
  · simp at hwr
  next w1 h1 =>
  rw [foldE_mono (fun w s r hm => hS false hC w s r (by simpa using hm)) h1]
  simp only
  split at hwr
  · simp at hwr
  next w2 h2 =>
  rw [foldE_mono (fun w s r hm => hS true hI w s r (by simpa using hm)) h2]
  exact hwr

/-- C39, partial. Whenever `write` succeeds, for readable fields, `write_virtual` makes a file which reads exactly the
same. Missing from the full property: data with fewer entries than the index says, where it is false
(`virtual_truncated_wrong`). -/
theorem virtual_equals_copy_partial {c : DC V} {h : H5File V} (hc : NoConflict c.files)
    (hv : ∀ b s k, HasField c b s k → FollowsIn c c.trainIds b s k) (hwr : c.write = .ok h) : c.writeVirtual = .ok h := by
  refine virtual_equals_copy_full ?_ hwr
  have hfull : ∀ b s k x, HasField c b s k → fldData c (b, s, k) = some x →
      ∀ chunks, c.sortedChunks s k = .ok chunks → FullChunks chunks := by
    intro b s k x hF hx chunks hch
    obtain ⟨a, h1, -⟩ := fldData_some hx
    exact fullChunks_gaps hc (hv b s k hF) (checkField_ok.1 (getArray_ok h1).1).1 hch
  exact hfull

/-- Data with fewer entries than the index says: with one entry left, `write` repeats it; `write_virtual` fails. -/
theorem virtual_truncated_wrong :
    let c : DC Nat := ⟨[exInst (ch! "a") [1, 2] [0, 2] [2, 1] [10]], [(ch! "D:o", none)], [1, 2], true⟩
    c.write.map (fun h => h.datasets) = .ok [([ch! "INSTRUMENT", ch! "D:o", ch! "data", ch! "y"], ⟨[10, 10, 10], [], 0⟩)] ∧
    c.writeVirtual = .error .value := by
  decide

theorem assembleData_none {c : DC V} {source key : Str} {a : LArr V}
    (h : c.getArray source key id = .ok a) (ht : a.coords = none) : assembleData c source key = .ok none := by
  obtain ⟨-, chunks, h1, h2, h3, h4, h5, -⟩ := getArray_ok h
  unfold DC.sortedChunks at h1
  unfold assembleData
  cases hcs : c.findDataChunks source key with
  | error e => rw [hcs] at h1; simp at h1
  | ok cs =>
    rw [hcs] at h1
    obtain rfl := Except.ok.inj h1
    simp only
    rw [filter_sortBy]
    have : (sortBy Chunk.sortKey cs).filter Chunk.nonEmpty = [] := by
      rw [List.filter_eq_nil_iff]
      intro ch hm hne
      have h0 := sum_zero_mem (h4.1 ht) (List.mem_map.2 ⟨ch, hm, rfl⟩)
      unfold Chunk.nonEmpty at hne
      rw [List.any_eq_true] at hne
      obtain ⟨n, n1, n2⟩ := hne
      have := sum_zero_mem h0 n1
      simp at n2; omega
    rw [this]

theorem fldVirtual_eq {c : DC V} {b : Bool} {s k : Str} (hc : NoConflict c.files) (hv : FollowsIn c c.trainIds b s k)
    (ha : Available c s k) (hm : ¬ Mismatch c b s k) : fldVirtual c (b, s, k) = fldData c (b, s, k) ∧
      (∃ x, assembleData c s k = .ok x) := by
  obtain ⟨a, h1, -⟩ := (get_array_mismatch_gaps id hc hv ha).2 hm
  cases hco : a.coords with
  | none =>
    have h2 := assembleData_none h1 hco
    refine ⟨?_, _, h2⟩
    simp only [fldVirtual, fldData, h1, h2, hco, Option.map_none]
  | some tids =>
    have h2 := assembleData_array h1 hco (fun _ => fullChunks_gaps hc hv ha.1)
    refine ⟨?_, _, h2⟩
    simp only [fldVirtual, fldData, h1, h2, hco, Option.map_some]

theorem foldE_congr {α σ : Type _} {f g : σ → α → R σ} {l : List α} : ∀ {s : σ},
    (∀ s, ∀ a ∈ l, f s a = g s a) → foldE f s l = foldE g s l := by
  induction l with
  | nil => intro s _; rfl
  | cons a l ih =>
    intro s h
    simp only [foldE]
    rw [h s a (by simp)]
    cases g s a with
    | error e => rfl
    | ok s' => exact ih (fun s b hb => h s b (by simp [hb]))

/-- C39, partial. If `write_virtual` succeeds, for files whose datasets agree on types and shapes, the new file has
the trains of the collection, the sources and keys with some data, and for these the same entries. Fields without
data are left out. Missing from the full property: files with interleaved trains, and reading single trains of control
data which is missing for some trains (`virtual_control_gap_wrong`). -/
theorem virtual_read_partial {c : DC V} {h : H5File V} (name : Str) (hw : Writable c)
    (hm : ∀ b s k, HasField c b s k → ¬ Mismatch c b s k) (hwr : c.writeVirtual = .ok h)
    (hsize : ∀ p ∈ h.datasets, p.2.rows.length < 2 ^ 64) :
    ∃ f, FileAccess.init name h none = .ok f ∧ f.trainIds = c.trainIds ∧
      (∀ s, s ∈ f.controlSources ↔ ∃ k, HasField c false s k ∧ HasData c false s k) ∧
      (∀ s, s ∈ f.instrumentSources ↔ ∃ k, HasField c true s k ∧ HasData c true s k) ∧
      (∀ b s k0, HasField c b s k0 → HasData c b s k0 → ∃ ks, f.getKeys s = .ok ks ∧ ks.Nodup ∧
        ∀ k, k ∈ ks ↔ HasField c b s k ∧ HasData c b s k) ∧
      (∀ b s k, HasField c b s k → HasData c b s k → ValidField f b s k ∧ StartsAtZero f b s k ∧ SameType c f b s k ∧
        SameEntries c f b s k) := by
  obtain ⟨Fs, w, hFs, hfold, hfin⟩ := writeVirtual_ok hwr
  have hfold : foldE (addFld c.trainIds (fldData c)) WState.new Fs = .ok w := by
    rw [← hfold]
    apply foldE_congr
    rintro s ⟨b, src, k⟩ hF
    have hF := (hFs _).1 hF
    unfold addFld
    rw [(fldVirtual_eq hw.noConflict (hw.valid _ _ _ hF) (hasField_available hF) (hm _ _ _ hF)).1]
  have hdata : ∀ b s k, HasField c b s k → ((∃ x, fldData c (b, s, k) = some x) ↔ HasData c b s k) := by
    intro b s k hF
    rw [fldData_iff hw.noConflict (hw.valid b s k hF)]
    constructor
    · rintro ⟨a, -, h⟩; exact h
    · intro h
      obtain ⟨a, h1, -⟩ := (get_array_mismatch_gaps id hw.noConflict (hw.valid b s k hF) (hasField_available hF)).2 (hm b s k hF)
      exact ⟨a, h1, h⟩
  obtain ⟨f, h1, h2, h3, h4, h5, h6⟩ := file_read hw name (fun F hF => (hFs F).1 hF) hfold hfin hsize
  have hmem : ∀ b s k, (b, s, k) ∈ Fs ↔ HasField c b s k := fun b s k => hFs (b, s, k)
  have hand : ∀ b s k, ((b, s, k) ∈ Fs ∧ ∃ x, fldData c (b, s, k) = some x) ↔ HasField c b s k ∧ HasData c b s k := by
    intro b s k
    rw [hmem]
    constructor
    · rintro ⟨h1, h2⟩; exact ⟨h1, (hdata b s k h1).1 h2⟩
    · rintro ⟨h1, h2⟩; exact ⟨h1, (hdata b s k h1).2 h2⟩
  refine ⟨f, h1, h2, ?_, ?_, ?_, ?_⟩
  · intro s; rw [h3]; simp only [hand]
  · intro s; rw [h4]; simp only [hand]
  · intro b s k0 hF hD
    obtain ⟨ks, g1, g2, g3⟩ := h5 b s k0 ((hmem _ _ _).2 hF) ((hdata _ _ _ hF).2 hD)
    exact ⟨ks, g1, g2, fun k => by rw [g3, hand]⟩
  · intro b s k hF hD
    obtain ⟨x, hx⟩ := (hdata b s k hF).2 hD
    obtain ⟨g1, g2, g3, g4⟩ := h6 b s k x ((hmem _ _ _).2 hF) hx
    exact ⟨g1, g2, sameType_of hw.noConflict (hw.valid b s k hF) hx g3,
      sameEntries_of hw.noConflict (hw.valid b s k hF) hx g4⟩

/-- C39. The dataset returned by `get_virtual_dataset` has the entries of `get_array`, with the same shape and type. -/
theorem virtual_dataset_array {c : DC V} {source key : Str} {a : LArr V} {ds : Dataset V} {h : H5File V}
    (ha : c.getArray source key id = .ok a) (hv : c.getVirtualDataset source key = .ok (ds, h)) :
    ds.rows = a.rows ∧ ds.rowShape = a.rowShape ∧ ds.dtype = a.dtype := by
  have hcf := (getArray_ok ha).1
  unfold DC.getVirtualDataset at hv
  rw [hcf] at hv
  simp only at hv
  have key' : ∀ b w' p, addFld c.trainIds (fldVirtual c) WState.new (b, source, key) = .ok w' →
      p = (fldVirtual c (b, source, key)).map (fun _ => dataPath (sectionName b) source key) →
      finishVirtual c (.ok (w', p)) = .ok (ds, h) → ds.rows = a.rows ∧ ds.rowShape = a.rowShape ∧ ds.dtype = a.dtype := by
    intro b w' p h1 h2 h3
    unfold finishVirtual at h3
    simp only at h3
    split at h3
    · simp at h3
    next h' hfin =>
    cases hco : a.coords with
    | none =>
      have : fldVirtual c (b, source, key) = none := by
        simp only [fldVirtual, assembleData_none ha hco]
      rw [this] at h2
      subst h2
      simp at h3
    | some tids =>
      have hx : fldVirtual c (b, source, key) = some (⟨a.rows, a.rowShape, a.dtype⟩, tids) := by
        cases hx' : fldVirtual c (b, source, key) with
        | none => rw [hx'] at h2; subst h2; simp at h3
        | some x =>
          rw [← hx']
          have hasm : assembleData c source key = .ok (some x) := by
            unfold fldVirtual at hx'
            simp only at hx'
            split at hx'
            · simp at hx'
            · next h0 => rw [h0, hx']
          simp only [fldVirtual, assembleData_array ha hco (fun _ => assembleData_full hasm)]
      rw [hx] at h2
      subst h2
      simp only [Option.map_some] at h3
      split at h3
      · simp at h3
      next ds' hds =>
      obtain ⟨rfl, rfl⟩ : ds' = ds ∧ h' = h := by simpa using h3
      obtain ⟨-, -, -, -, f5, -⟩ := finish_ok hfin
      have hi := winv_fold (Fs := [(b, source, key)]) (by simp) (foldE_cons_ok.2 ⟨w', h1, rfl⟩)
      rw [f5, hi.data] at hds
      simp [hx, h5path_dataPath, Dict.get?] at hds
      subst hds
      exact ⟨rfl, rfl, rfl⟩
  split at hv
  · cases hr : vAddControl c WState.new source key with
    | error e => rw [hr] at hv; simp [finishVirtual] at hv
    | ok r =>
      obtain ⟨w', p⟩ := r
      rw [hr] at hv
      obtain ⟨-, h1, h2⟩ := vAddControl_eq.1 hr
      exact key' false w' p h1 h2 hv
  · cases hr : vAddInstrument c WState.new source key with
    | error e => rw [hr] at hv; simp [finishVirtual] at hv
    | ok r =>
      obtain ⟨w', p⟩ := r
      rw [hr] at hv
      obtain ⟨-, h1, h2⟩ := vAddInstrument_eq.1 hr
      exact key' true w' p h1 h2 hv

/-- C39. The file made by `get_virtual_dataset` has the trains of the collection and a valid index for the field: the
same entries for every train. -/
theorem virtual_dataset_read {c : DC V} {b : Bool} {source key : Str} {ds : Dataset V} {h : H5File V} (name : Str)
    (hw : Writable c) (hF : HasField c b source key) (hone : b = true → source ∉ c.controlSources)
    (hv : c.getVirtualDataset source key = .ok (ds, h)) (hm : ¬ Mismatch c b source key)
    (hsize : ∀ p ∈ h.datasets, p.2.rows.length < 2 ^ 64) :
    ∃ f, FileAccess.init name h none = .ok f ∧ f.trainIds = c.trainIds ∧
      f.dataset (sectionName b) source key = .ok ds ∧
      ValidField f b source key ∧ StartsAtZero f b source key ∧ SameEntries c f b source key := by
  have heq := (fldVirtual_eq hw.noConflict (hw.valid _ _ _ hF) (hasField_available hF) hm).1
  have key' : ∀ w' p, addFld c.trainIds (fldVirtual c) WState.new (b, source, key) = .ok w' →
      p = (fldVirtual c (b, source, key)).map (fun _ => dataPath (sectionName b) source key) →
      finishVirtual c (.ok (w', p)) = .ok (ds, h) →
      ∃ x, fldData c (b, source, key) = some x ∧ x.1 = ds ∧
        foldE (addFld c.trainIds (fldData c)) WState.new [(b, source, key)] = .ok w' ∧
        w'.finish c.trainIds = .ok h := by
    intro w' p h1 h2 h3
    unfold finishVirtual at h3
    simp only at h3
    split at h3
    · simp at h3
    next h' hfin =>
    cases hx : fldVirtual c (b, source, key) with
    | none => rw [hx] at h2; subst h2; simp at h3
    | some x =>
      rw [hx] at h2
      subst h2
      simp only [Option.map_some] at h3
      split at h3
      · simp at h3
      next ds' hds =>
      obtain ⟨rfl, rfl⟩ : ds' = ds ∧ h' = h := by simpa using h3
      obtain ⟨-, -, -, -, f5, -⟩ := finish_ok hfin
      have hi := winv_fold (Fs := [(b, source, key)]) (by simp) (foldE_cons_ok.2 ⟨w', h1, rfl⟩)
      rw [f5, hi.data] at hds
      simp [hx, h5path_dataPath, Dict.get?] at hds
      refine ⟨x, heq ▸ hx, hds, ?_, hfin⟩
      refine foldE_cons_ok.2 ⟨w', ?_, rfl⟩
      unfold addFld at h1 ⊢
      rw [← heq]; exact h1
  have : ∃ x w', fldData c (b, source, key) = some x ∧ x.1 = ds ∧
        foldE (addFld c.trainIds (fldData c)) WState.new [(b, source, key)] = .ok w' ∧
        w'.finish c.trainIds = .ok h := by
    unfold DC.getVirtualDataset at hv
    rw [checkField_ok.2 (hasField_available hF)] at hv
    simp only at hv
    cases b with
    | false =>
      rw [if_pos (by simpa using hF.1)] at hv
      cases hr : vAddControl c WState.new source key with
      | error e => rw [hr] at hv; simp [finishVirtual] at hv
      | ok r =>
        obtain ⟨w', p⟩ := r
        rw [hr] at hv
        obtain ⟨-, h1, h2⟩ := vAddControl_eq.1 hr
        obtain ⟨x, hx⟩ := key' w' p h1 h2 hv
        exact ⟨x, w', hx⟩
    | true =>
      rw [if_neg (hone rfl)] at hv
      cases hr : vAddInstrument c WState.new source key with
      | error e => rw [hr] at hv; simp [finishVirtual] at hv
      | ok r =>
        obtain ⟨w', p⟩ := r
        rw [hr] at hv
        obtain ⟨-, h1, h2⟩ := vAddInstrument_eq.1 hr
        obtain ⟨x, hx⟩ := key' w' p h1 h2 hv
        exact ⟨x, w', hx⟩
  obtain ⟨x, w', hx, rfl, hfold, hfin⟩ := this
  obtain ⟨f, h1, h2, h3, h4, h5, h6⟩ := file_read hw name (fun F hF' => by
    rw [List.mem_singleton] at hF'; subst hF'; exact hF) hfold hfin hsize
  obtain ⟨g1, g2, g3, g4⟩ := h6 b source key x (by simp) hx
  exact ⟨f, h1, h2, g3, g1, g2, sameEntries_of hw.noConflict (hw.valid _ _ _ hF) hx g4⟩

/-- The file `write` makes, opened again. -/
def readBack (c : DC V) : R (FileAccess V) :=
  match c.write with
  | .error e => .error e
  | .ok h => FileAccess.init (ch! "new.h5") h none

/-- The same for `write_virtual`. -/
def readBackVirtual (c : DC V) : R (FileAccess V) :=
  match c.writeVirtual with
  | .error e => .error e
  | .ok h => FileAccess.init (ch! "new.h5") h none

/-- C37 is false for interleaved files: `exArr` (trains 1 and 3 in one file, 2 in the other; see `exArr_valid`) has
`[20]` for train 2 and `[12]` for train 3. In the file written, they are swapped. -/
theorem write_interleaved_wrong :
    exArr.trainIds.map (fun t => exArr.files.map (fun f => fileEntries f true (ch! "D:o") (ch! "data.y") t)) =
      [[[10, 11], []], [[], [20]], [[12], []]] ∧
    (readBack exArr).map (fun f => exArr.trainIds.map (fun t => fileEntries f true (ch! "D:o") (ch! "data.y") t)) =
      .ok [[10, 11], [12], [20]] := ⟨by decide, by decide⟩

/-- C38 is false for trains which are selected in reverse order: the written file has other entries for each train. -/
theorem write_reversed_wrong :
    let c : DC Nat := ⟨[exInst (ch! "a") [1, 2] [0, 1] [1, 1] [10, 20]], [(ch! "D:o", none)], [1, 2], true⟩
    c.selectTrains (.indexSlice none none (some (-1))) = .ok { c with trainIds := [2, 1], ctxCloses := false } ∧
    (readBack { c with trainIds := [2, 1], ctxCloses := false }).map (fun f =>
      [1, 2].map (fun t => fileEntries f true (ch! "D:o") (ch! "data.y") t)) = .ok [[20], [10]] :=
  ⟨by decide, by decide⟩

/-- C38 is false for a train selected twice: the index of the file written reaches beyond its data. -/
theorem write_duplicated_wrong :
    let c : DC Nat := ⟨[exInst (ch! "a") [1, 2] [0, 1] [1, 1] [10, 20]], [(ch! "D:o", none)], [1, 2], true⟩
    c.selectTrains (.indexList [0, 0]) = .ok { c with trainIds := [1, 1], ctxCloses := false } ∧
    (readBack { c with trainIds := [1, 1], ctxCloses := false }).map (fun f =>
      (f.trainIds, f.getIndex (ch! "D:o") (ch! "data"),
        (f.dataset (ch! "INSTRUMENT") (ch! "D:o") (ch! "data.y")).map (·.rows))) =
      .ok ([1, 1], .ok ([0, 1], [1, 1]), .ok [10]) := ⟨by decide, by decide⟩

/-- C39 is false for control data which is missing for some trains: read from the virtual file, train 1 has the value
of train 2. In the original collection it has none. -/
theorem virtual_control_gap_wrong :
    let c : DC Nat := ⟨[exCtrl (ch! "c") [2] [0] [1] [20], exInst (ch! "a") [1, 2] [0, 1] [1, 1] [11, 12]],
      [(ch! "C", none), (ch! "D:o", none)], [1, 2], true⟩
    c.trainFromId 1 = .ok (1, [(ch! "C", ⟨ch! "C", 1, []⟩), (ch! "D:o", ⟨ch! "D:o", 1, [(ch! "data.y", .one 11)]⟩)]) ∧
    (match readBackVirtual c with
      | .error e => .error e
      | .ok f => match DC.make [f] none none true with
        | .error e => .error e
        | .ok d => d.trainFromId 1) =
      (.ok (1, [(ch! "C", ⟨ch! "C", 1, [(ch! "x.value", .one 20)]⟩),
        (ch! "D:o", ⟨ch! "D:o", 1, [(ch! "data.y", .one 11)]⟩)]) : R _) := ⟨by decide, by decide⟩

/-- `write` fails with KeyError for a key without data, `write_virtual` leaves it out, and `get_virtual_dataset` fails
with TypeError; also for control data, when no trains are selected. -/
theorem write_no_data :
    let c : DC Nat := ⟨[exInst (ch! "a") [1, 2] [0, 0] [0, 0] []], [(ch! "D:o", none)], [1, 2], true⟩
    c.write = .error .key ∧
    (readBackVirtual c).map (fun f => (f.trainIds, f.instrumentSources)) = .ok ([1, 2], []) ∧
    c.getVirtualDataset (ch! "D:o") (ch! "data.y") = .error .type ∧
    let c0 : DC Nat := ⟨[exCtrl (ch! "c") [1] [0] [1] [31]], [(ch! "C", none)], [], true⟩
    c0.write = .error .key ∧ (readBackVirtual c0).map (fun f => (f.trainIds, f.controlSources)) = .ok ([], []) ∧
      c0.getVirtualDataset (ch! "C") (ch! "x.value") = .error .type :=
  ⟨by decide, by decide, by decide, by decide, by decide, by decide⟩

/-- A collection of three files which can be written and read back. -/
def exWrite : DC Nat where
  files := [exInst (ch! "a") [1, 2] [0, 2] [2, 1] [10, 11, 12], exInst (ch! "b") [3, 4] [0, 1] [1, 0] [20],
    exCtrl (ch! "c") [1, 2, 3, 4] [0, 1, 2, 3] [1, 1, 1, 1] [31, 32, 33, 34]]
  selection := [(ch! "D:o", none), (ch! "C", none)]
  trainIds := [1, 2, 3]
  ctxCloses := true

theorem exWrite_field {b : Bool} {s k : Str} (h : HasField exWrite b s k) :
    (b = true ∧ s = ch! "D:o" ∧ k = ch! "data.y") ∨ (b = false ∧ s = ch! "C" ∧ k = ch! "x.value") := by
  obtain ⟨h1, ks, h2, h3⟩ := h
  cases b with
  | true =>
    have e : exWrite.instrumentSources = [ch! "D:o"] := by decide
    rw [if_pos rfl, e, List.mem_singleton] at h1
    subst h1
    have : exWrite.keysForSource (ch! "D:o") = .ok [ch! "data.y"] := by decide
    rw [this] at h2; obtain rfl := Except.ok.inj h2
    exact Or.inl ⟨rfl, rfl, List.mem_singleton.1 h3⟩
  | false =>
    have e : exWrite.controlSources = [ch! "C"] := by decide
    rw [if_neg (by decide), e, List.mem_singleton] at h1
    subst h1
    have : exWrite.keysForSource (ch! "C") = .ok [ch! "x.value"] := by decide
    rw [this] at h2; obtain rfl := Except.ok.inj h2
    exact Or.inr ⟨rfl, rfl, List.mem_singleton.1 h3⟩

theorem exCtrl_validField {name : Str} {tids rows : List Nat} (h1 : tids.Pairwise (· < ·)) (h0 : tids ≠ [])
    (h2 : tids.length ≤ rows.length) (h3 : tids.length < 2 ^ 64) :
    ValidField (exCtrl name tids (List.range tids.length) (List.replicate tids.length 1) rows) false (ch! "C")
      (ch! "x.value") := by
  obtain ⟨⟨-, a2, f, n, ds, a3, a4, a5, a6, a7⟩, a8⟩ := exCtrl_valid (name := name) (tids := tids)
    (h1.imp (fun h => Nat.ne_of_lt h)) h2 h3
  refine ⟨h1, h0, a2, f, n, ds, a3, a4, a5, a6, ?_, a7⟩
  have a8 := a8.symm.trans a3
  obtain ⟨rfl, rfl⟩ : List.range tids.length = f ∧ List.replicate tids.length 1 = n := by simpa [exCtrl] using a8
  intro i x m y hx hm hy
  have hi := (List.getElem?_eq_some_iff.1 hx).1
  have hi2 := (List.getElem?_eq_some_iff.1 hy).1
  simp at hi hi2
  rw [List.getElem?_range hi] at hx
  rw [List.getElem?_range hi2] at hy
  rw [List.getElem?_replicate, if_pos hi] at hm
  simp at hx hm hy
  omega

theorem exWrite_valid {b : Bool} {s k : Str} (h : HasField exWrite b s k) : ValidIn exWrite b s k := by
  intro f hf hh
  have e : f = exInst (ch! "a") [1, 2] [0, 2] [2, 1] [10, 11, 12] ∨ f = exInst (ch! "b") [3, 4] [0, 1] [1, 0] [20] ∨
      f = exCtrl (ch! "c") [1, 2, 3, 4] [0, 1, 2, 3] [1, 1, 1, 1] [31, 32, 33, 34] := by
    rcases List.mem_cons.1 hf with rfl | hf
    · exact Or.inl rfl
    rcases List.mem_cons.1 hf with rfl | hf
    · exact Or.inr (Or.inl rfl)
    · exact Or.inr (Or.inr (List.mem_singleton.1 hf))
  rcases exWrite_field h with ⟨rfl, rfl, rfl⟩ | ⟨rfl, rfl, rfl⟩
  · rcases e with rfl | rfl | rfl
    · exact exInst_valid (by decide) (by decide) rfl rfl (contiguous_cons rfl (contiguous_one _ _))
        (inBounds_cons (by decide) (inBounds_cons (by decide) (inBounds_nil _))) (by decide) (by decide)
    · exact exInst_valid (by decide) (by decide) rfl rfl (contiguous_cons rfl (contiguous_one _ _))
        (inBounds_cons (by decide) (inBounds_cons (by decide) (inBounds_nil _))) (by decide) (by decide)
    · exact absurd hh (by unfold Holds; decide)
  · rcases e with rfl | rfl | rfl
    · exact absurd hh (by unfold Holds; decide)
    · exact absurd hh (by unfold Holds; decide)
    · exact exCtrl_validField (tids := [1, 2, 3, 4]) (by decide) (by decide) (by decide) (by decide)

/-- The conditions of `write_read_partial` and `virtual_read_partial` hold for it. -/
theorem exWrite_writable : Writable exWrite := by
  refine ⟨⟨hasConflicts_false.1 (by decide), by decide, by decide, ⟨by decide, ?_, ?_, ?_⟩,
    fun b s k h => validIn_follows (exWrite_valid h) _⟩, fun b s k hF => inOrder_of_ranges b k ?_⟩
  · intro s hs
    have e : exWrite.instrumentSources = [ch! "D:o"] := by decide
    rw [e, List.mem_singleton] at hs
    exact ⟨ch! "D", ch! "o", ⟨by decide, by decide⟩, hs⟩
  · intro b s k h
    rcases exWrite_field h with ⟨-, -, rfl⟩ | ⟨-, -, rfl⟩
    · exact ⟨[ch! "data", ch! "y"], by decide, by decide, by decide⟩
    · exact ⟨[ch! "x", ch! "value"], by decide, by decide, by decide⟩
  · intro b s k s' k' h h' _
    rcases exWrite_field h with ⟨rfl, rfl, -⟩ | ⟨rfl, rfl, -⟩ <;> rcases exWrite_field h' with ⟨hb, rfl, -⟩ | ⟨hb, rfl, -⟩
    · rfl
    · simp at hb
    · simp at hb
    · rfl
  · have hs := (hasField_available hF).1
    have e : exWrite.allSources = [ch! "C", ch! "D:o"] := by decide
    rw [e] at hs
    intro f hf g hg hh1 hh2 hne
    rcases List.mem_cons.1 hs with rfl | hs
    · have : ∀ f ∈ exWrite.files, ∀ g ∈ exWrite.files, (ch! "C" ∈ f.controlSources ∨ ch! "C" ∈ f.instrumentSources) →
          (ch! "C" ∈ g.controlSources ∨ ch! "C" ∈ g.instrumentSources) → f ≠ g →
          (∀ t ∈ f.trainIds, ∀ u ∈ g.trainIds, t < u) ∨ (∀ t ∈ f.trainIds, ∀ u ∈ g.trainIds, u < t) := by decide
      exact this f hf g hg hh1 hh2 hne
    · obtain rfl := List.mem_singleton.1 hs
      have : ∀ f ∈ exWrite.files, ∀ g ∈ exWrite.files, (ch! "D:o" ∈ f.controlSources ∨ ch! "D:o" ∈ f.instrumentSources) →
          (ch! "D:o" ∈ g.controlSources ∨ ch! "D:o" ∈ g.instrumentSources) → f ≠ g →
          (∀ t ∈ f.trainIds, ∀ u ∈ g.trainIds, t < u) ∨ (∀ t ∈ f.trainIds, ∀ u ∈ g.trainIds, u < t) := by decide
      exact this f hf g hg hh1 hh2 hne

example : (readBack exWrite).map (fun f => (f.trainIds, f.controlSources, f.instrumentSources)) =
    .ok ([1, 2, 3], [ch! "C"], [ch! "D:o"]) ∧
    (readBack exWrite).map (fun f => ([1, 2, 3].map (fun t => fileEntries f true (ch! "D:o") (ch! "data.y") t),
      [1, 2, 3].map (fun t => fileEntries f false (ch! "C") (ch! "x.value") t))) =
    .ok ([[10, 11], [12], [20]], [[31], [32], [33]]) ∧
    readBackVirtual exWrite = readBack exWrite := ⟨by decide, by decide, by decide⟩

example : (exWrite.getVirtualDataset (ch! "D:o") (ch! "data.y")).map (fun x => x.1.rows) = .ok [10, 11, 12, 20] := by
  decide

end KD

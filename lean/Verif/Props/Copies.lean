/-
C118: copies of copies have the same data.
-/
import Verif.Spec.Copies
import Verif.Props.VirtualSucceeds
import Verif.Props.OpenUnion
import Verif.Lemmas.DetArray

namespace KD

open Spec

variable {V W : Type}

/-- Two lists sorted by labels are equal if they have the same entries for each label. -/
theorem sorted_ext {l m : List (Nat × W)} (hl : (l.map Prod.fst).Pairwise (· ≤ ·)) (hm : (m.map Prod.fst).Pairwise (· ≤ ·))
    (h : ∀ t, l.filter (fun x => x.1 = t) = m.filter (fun x => x.1 = t)) : l = m := by
  induction l generalizing m with
  | nil =>
    cases m with
    | nil => rfl
    | cons x m => have := h x.1; simp at this
  | cons x l ih =>
    cases m with
    | nil => have := h x.1; simp at this
    | cons y m =>
      rw [List.map_cons, List.pairwise_cons] at hl hm
      have hxy : x.1 = y.1 := by
        have h1 : x ∈ (y :: m).filter (fun z => z.1 = x.1) := by rw [← h x.1]; simp
        have h2 : y ∈ (x :: l).filter (fun z => z.1 = y.1) := by rw [h y.1]; simp
        have h1 := (List.mem_filter.1 h1).1
        have h2 := (List.mem_filter.1 h2).1
        have a1 : y.1 ≤ x.1 := by
          rcases List.mem_cons.1 h1 with rfl | h1
          · exact Nat.le_refl _
          · exact hm.1 _ (List.mem_map_of_mem h1)
        have a2 : x.1 ≤ y.1 := by
          rcases List.mem_cons.1 h2 with rfl | h2
          · exact Nat.le_refl _
          · exact hl.1 _ (List.mem_map_of_mem h2)
        omega
      have hx : x = y := by
        have := h x.1
        rw [List.filter_cons_of_pos (by simp), List.filter_cons_of_pos (by simp [hxy])] at this
        exact (List.cons.inj this).1
      subst hx
      rw [ih hl.2 hm.2 ?_]
      intro t
      have := h t
      by_cases ht : x.1 = t
      · rw [List.filter_cons_of_pos (by simp [ht]), List.filter_cons_of_pos (by simp [ht])] at this
        exact (List.cons.inj this).2
      · rw [List.filter_cons_of_neg (by simp [ht]), List.filter_cons_of_neg (by simp [ht])] at this
        exact this

theorem filter_label (l : List (Nat × W)) (t : Nat) :
    l.filter (fun x => x.1 = t) = ((l.filter (fun x => x.1 = t)).map Prod.snd).map (fun v => (t, v)) := by
  rw [List.map_map]
  conv_lhs => rw [← List.map_id (l.filter (fun x => x.1 = t))]
  apply List.map_congr_left
  intro x hx
  have := (List.mem_filter.1 hx).2
  simp only [decide_eq_true_eq] at this
  simp [← this]

/-- Two arrays in order of trains are equal if they have the same entries for each train. -/
theorem labelled_ext {a b : LArr W} (ha : AllLabelled a) (hb : AllLabelled b) (oa : (a.coords.getD []).Pairwise (· ≤ ·))
    (ob : (b.coords.getD []).Pairwise (· ≤ ·)) (h : ∀ t, labelled a t = labelled b t) :
    a.rows = b.rows ∧ a.coords.getD [] = b.coords.getD [] := by
  unfold AllLabelled at ha hb
  have fa : ((a.coords.getD []).zip a.rows).map Prod.fst = a.coords.getD [] := List.map_fst_zip (by omega)
  have fb : ((b.coords.getD []).zip b.rows).map Prod.fst = b.coords.getD [] := List.map_fst_zip (by omega)
  have sa : ((a.coords.getD []).zip a.rows).map Prod.snd = a.rows := List.map_snd_zip (by omega)
  have sb : ((b.coords.getD []).zip b.rows).map Prod.snd = b.rows := List.map_snd_zip (by omega)
  have key : (a.coords.getD []).zip a.rows = (b.coords.getD []).zip b.rows := by
    apply sorted_ext (by rw [fa]; exact oa) (by rw [fb]; exact ob)
    intro t
    have := h t
    unfold labelled at this
    rw [filter_label, this, ← filter_label]
  constructor
  · rw [← sa, ← sb, key]
  · rw [← fa, ← fb, key]

/-- What the theorems about copies need: files can be written, all sources have keys and all fields have data, of one shape
and type. -/
structure Copyable (c : DC V) : Prop where
  writable : Writable c
  keys : ∀ s ∈ c.allSources, ∃ k, Available c s k
  same : ∀ b s k, HasField c b s k → ¬ Mismatch c b s k
  data : ∀ b s k, HasField c b s k → HasData c b s k

/-- What a file shows which has all the data of the collection. -/
structure FullCopy (c : DC V) (f : FileAccess V) : Prop where
  trains : f.trainIds = c.trainIds
  control : ∀ s, s ∈ f.controlSources ↔ s ∈ c.controlSources
  instrument : ∀ s, s ∈ f.instrumentSources ↔ s ∈ c.instrumentSources
  keys : ∀ s ∈ c.allSources, ∃ ks, f.getKeys s = .ok ks ∧ ∀ k, k ∈ ks ↔ Available c s k
  fields : ∀ b s k, HasField c b s k → ValidField f b s k ∧ SameType c f b s k ∧ SameEntries c f b s k
  start : ∀ b s k, HasField c b s k → StartsAtZero f b s k

theorem mem_all {c : DC V} {s : Str} : s ∈ c.allSources ↔ s ∈ c.controlSources ∨ s ∈ c.instrumentSources := by
  unfold DC.allSources; simp

theorem field_of_available {c : DC V} {s k : Str} (h : Available c s k) : HasField c false s k ∨ HasField c true s k := by
  obtain ⟨h1, h2⟩ := h
  rcases mem_all.1 h1 with h | h
  · exact Or.inl ⟨by simpa using h, h2⟩
  · exact Or.inr ⟨by simpa using h, h2⟩

/-- The files of `write` and `write_virtual` have all the data. -/
theorem written_full {c : DC V} (hc : Copyable c) {kind : WriteKind} {h : H5File V} (hw : c.writeAs kind = .ok h)
    (hs : ∀ p ∈ h.datasets, p.2.rows.length < 2 ^ 64) (name : Str) :
    ∃ f, FileAccess.init name h none = .ok f ∧ FullCopy c f := by
  cases kind with
  | copy =>
    obtain ⟨f, h1, h2, h3, h4, h5, h6⟩ := write_read_partial name hc.writable hw hc.keys hs
    refine ⟨f, h1, h2, h3, h4, ?_, ?_, fun b s k hF => (h6 b s k hF).2.1⟩
    · intro s hs
      obtain ⟨ks, k1, -, k3⟩ := h5 s hs
      exact ⟨ks, k1, k3⟩
    · intro b s k hF
      obtain ⟨g1, -, g3, g4⟩ := h6 b s k hF
      exact ⟨g1, g3, g4⟩
  | virtual =>
    obtain ⟨f, h1, h2, h3, h4, h5, h6⟩ := virtual_read_partial name hc.writable hc.same hw hs
    refine ⟨f, h1, h2, ?_, ?_, ?_, ?_, fun b s k hF => (h6 b s k hF (hc.data _ _ _ hF)).2.1⟩
    · intro s
      rw [h3]
      constructor
      · rintro ⟨k, hF, -⟩; simpa using hF.1
      · intro hs
        obtain ⟨k, hk⟩ := hc.keys s (mem_all.2 (Or.inl hs))
        have hF : HasField c false s k := ⟨by simpa using hs, hk.2⟩
        exact ⟨k, hF, hc.data _ _ _ hF⟩
    · intro s
      rw [h4]
      constructor
      · rintro ⟨k, hF, -⟩; simpa using hF.1
      · intro hs
        obtain ⟨k, hk⟩ := hc.keys s (mem_all.2 (Or.inr hs))
        have hF : HasField c true s k := ⟨by simpa using hs, hk.2⟩
        exact ⟨k, hF, hc.data _ _ _ hF⟩
    · intro s hs
      obtain ⟨k0, hk0⟩ := hc.keys s hs
      have key : ∀ b, HasField c b s k0 → ∃ ks, f.getKeys s = .ok ks ∧ ∀ k, k ∈ ks ↔ Available c s k := by
        intro b hF
        obtain ⟨ks, k1, -, k3⟩ := h5 b s k0 hF (hc.data _ _ _ hF)
        refine ⟨ks, k1, fun k => ?_⟩
        rw [k3]
        constructor
        · rintro ⟨hF', -⟩; exact ⟨hs, hF'.2⟩
        · intro hk
          have hF' : HasField c b s k := ⟨hF.1, hk.2⟩
          exact ⟨hF', hc.data _ _ _ hF'⟩
      rcases field_of_available hk0 with hF | hF
      · exact key _ hF
      · exact key _ hF
    · intro b s k hF
      obtain ⟨g1, -, g3, g4⟩ := h6 b s k hF (hc.data _ _ _ hF)
      exact ⟨g1, g3, g4⟩

/-- The collection made of one file. -/
def DC.single (f : FileAccess V) : DC V := ⟨[f], defaultSelection [f], sortedSet ([f].flatMap (fun f => f.trainIds)), true⟩

theorem sorted_same {l : List Nat} (h : l.Pairwise (· < ·)) : sortedSet l = l := by
  have h1 := sortedSet_pairwise l
  apply h1.eq_of_mem_iff h
  intro a
  unfold sortedSet
  rw [List.mem_insertionSort, List.mem_dedup]

section Single

variable {c : DC V} {f : FileAccess V}

theorem single_trains (hc : Writable c) (hf : FullCopy c f) : (DC.single f).trainIds = c.trainIds := by
  unfold DC.single
  simp only [List.flatMap_cons, List.flatMap_nil, List.append_nil]
  rw [hf.trains]
  exact sorted_same hc.trains

theorem single_keys_mem (s : Str) : s ∈ (defaultSelection [f]).keys ↔ Holds f s := by
  rw [(defaultSelection_get? [f] s).2]; simp

theorem single_control (hf : FullCopy c f) (s : Str) : s ∈ (DC.single f).controlSources ↔ s ∈ c.controlSources := by
  rw [mem_controlSources, ← hf.control]
  unfold DC.single
  dsimp only
  rw [single_keys_mem]
  simp only [List.mem_singleton, exists_eq_left, Holds]
  tauto

theorem single_instrument (hf : FullCopy c f) (s : Str) : s ∈ (DC.single f).instrumentSources ↔ s ∈ c.instrumentSources := by
  rw [mem_instrumentSources, ← hf.instrument]
  unfold DC.single
  dsimp only
  rw [single_keys_mem]
  simp only [List.mem_singleton, exists_eq_left, Holds]
  tauto

theorem single_all (hf : FullCopy c f) (s : Str) : s ∈ (DC.single f).allSources ↔ s ∈ c.allSources := by
  rw [mem_all, mem_all, single_control hf, single_instrument hf]

theorem full_holds (hf : FullCopy c f) (s : Str) : Holds f s ↔ s ∈ c.allSources := by
  rw [mem_all]
  unfold Holds
  rw [hf.control, hf.instrument]

theorem single_keysFor (hf : FullCopy c f) {s : Str} (hs : s ∈ c.allSources) :
    (DC.single f).keysForSource s = f.getKeys s := by
  have hh : Holds f s := (full_holds hf s).2 hs
  have hg : (DC.single f).selection.get? s = some none := (defaultSelection_get? [f] s).1 ⟨f, by simp, hh⟩
  have hi : (DC.single f).sourceIndex s = [f] := by
    unfold DC.sourceIndex DC.single
    have : s ∈ f.controlSources ∨ s ∈ f.instrumentSources := hh
    simp only [List.filter_cons, List.filter_nil]
    rw [if_pos (by simpa using this)]
  unfold DC.keysForSource
  rw [hg, hi]
  rfl

theorem single_available (hf : FullCopy c f) (s k : Str) : Available (DC.single f) s k ↔ Available c s k := by
  constructor
  · rintro ⟨h1, ks, h2, h3⟩
    have hs := (single_all hf s).1 h1
    obtain ⟨ks', k1, k2⟩ := hf.keys s hs
    rw [single_keysFor hf hs, k1] at h2
    obtain rfl := Except.ok.inj h2
    exact (k2 k).1 h3
  · intro h
    obtain ⟨ks', k1, k2⟩ := hf.keys s h.1
    exact ⟨(single_all hf s).2 h.1, ks', by rw [single_keysFor hf h.1]; exact k1, (k2 k).2 h⟩

theorem single_field (hf : FullCopy c f) (b : Bool) (s k : Str) : HasField (DC.single f) b s k ↔ HasField c b s k := by
  have hall : (if b = true then s ∈ (DC.single f).instrumentSources else s ∈ (DC.single f).controlSources) ↔
      (if b = true then s ∈ c.instrumentSources else s ∈ c.controlSources) := by
    cases b
    · simpa using single_control hf s
    · simpa using single_instrument hf s
  have hmem : ∀ d : DC V, (if b = true then s ∈ d.instrumentSources else s ∈ d.controlSources) → s ∈ d.allSources := by
    intro d h
    cases b
    · exact mem_all.2 (Or.inl (by simpa using h))
    · exact mem_all.2 (Or.inr (by simpa using h))
  constructor
  · rintro ⟨h1, h2⟩
    exact ⟨hall.1 h1, ((single_available hf s k).1 ⟨hmem _ h1, h2⟩).2⟩
  · rintro ⟨h1, h2⟩
    exact ⟨hall.2 h1, ((single_available hf s k).2 ⟨hmem _ h1, h2⟩).2⟩

theorem mem_single {g : FileAccess V} : g ∈ (DC.single f).files ↔ g = f := by
  unfold DC.single; simp

/-- Entries of a selected train are those in the copy. -/
theorem full_entries (hf : FullCopy c f) {b : Bool} {s k : Str} (hF : HasField c b s k) {t : Nat} (ht : t ∈ c.trainIds)
    {g : FileAccess V} (hg : g ∈ c.files) (hh : Holds g s) (hne : fileEntries g b s k t ≠ []) :
    fileEntries f b s k t = fileEntries g b s k t := by
  have htg : t ∈ g.trainIds := by
    by_contra h
    exact hne (fileEntries_notMem h)
  exact ((hf.fields b s k hF).2.2 t ht).1 g hg hh htg

theorem field_holds {b : Bool} {s k : Str} (hf : FullCopy c f) (hF : HasField c b s k) : Holds f s := by
  rw [full_holds hf]
  have := hF.1
  cases b
  · exact mem_all.2 (Or.inl (by simpa using this))
  · exact mem_all.2 (Or.inr (by simpa using this))

theorem single_data (hf : FullCopy c f) (hc : Writable c) {b : Bool} {s k : Str} (hF : HasField c b s k) (hd : HasData c b s k) :
    HasData (DC.single f) b s k := by
  obtain ⟨t, ht, g, hg, hh, hne⟩ := hd
  refine ⟨t, by rw [single_trains hc hf]; exact ht, f, mem_single.2 rfl, field_holds hf hF, ?_⟩
  rw [full_entries hf hF ht hg hh hne]
  exact hne

theorem single_copyable (hc : Copyable c) (hf : FullCopy c f) : Copyable (DC.single f) where
  writable := {
    noConflict := List.pairwise_singleton _ _
    trains := by rw [single_trains hc.writable hf]; exact hc.writable.trains
    nonzero := by rw [single_trains hc.writable hf]; exact hc.writable.nonzero
    named := {
      control := fun s hs => hc.writable.named.control s ((single_control hf s).1 hs)
      instrument := fun s hs => hc.writable.named.instrument s ((single_instrument hf s).1 hs)
      keys := fun b s k h => hc.writable.named.keys b s k ((single_field hf b s k).1 h)
      apart := fun b s k s' k' h h' => hc.writable.named.apart b s k s' k' ((single_field hf b s k).1 h)
        ((single_field hf b s' k').1 h') }
    valid := by
      intro b s k h
      refine validIn_follows (fun g hg _ => ?_) _
      obtain rfl := mem_single.1 hg
      exact (hf.fields b s k ((single_field hf b s k).1 h)).1
    inOrder := by
      intro b s k _
      apply inOrder_of_ranges
      intro g hg g' hg' _ _ hne
      rw [mem_single.1 hg, mem_single.1 hg'] at hne
      exact absurd rfl hne }
  keys := by
    intro s hs
    obtain ⟨k, hk⟩ := hc.keys s ((single_all hf s).1 hs)
    exact ⟨k, (single_available hf s k).2 hk⟩
  same := by
    rintro b s k - ⟨g, hg, g', hg', -, -, d, e, h1, h2, h3⟩
    rw [mem_single.1 hg] at h1
    rw [mem_single.1 hg'] at h2
    rw [h1] at h2
    obtain rfl := Except.ok.inj h2
    rcases h3 with h3 | h3 <;> exact h3 rfl
  data := fun b s k h => single_data hf hc.writable ((single_field hf b s k).1 h)
    (hc.data b s k ((single_field hf b s k).1 h))

theorem field_available {b : Bool} {s k : Str} (hF : HasField c b s k) : Available c s k := hasField_available hF

/-- `get_array` gives the same for the copy. -/
theorem single_array (hc : Copyable c) (hf : FullCopy c f) {b : Bool} {s k : Str} (hF : HasField c b s k) (roi : V → W) :
    ∃ a, c.getArray s k roi = .ok a ∧ (DC.single f).getArray s k roi = .ok a := by
  have hc' := single_copyable hc hf
  have hF' := (single_field hf b s k).2 hF
  obtain ⟨a, ha, hat⟩ := (get_array_mismatch_gaps roi hc.writable.noConflict (hc.writable.valid b s k hF)
    (field_available hF)).2 (hc.same b s k hF)
  obtain ⟨a', ha', hat'⟩ := (get_array_mismatch_gaps roi hc'.writable.noConflict (hc'.writable.valid b s k hF')
    (field_available hF')).2 (hc'.same b s k hF')
  refine ⟨a, ha, ?_⟩
  rw [ha']
  obtain ⟨l1, l2, l3⟩ := get_array_follows hc.writable.noConflict (hc.writable.valid b s k hF) ha
  obtain ⟨m1, m2, m3⟩ := get_array_follows hc'.writable.noConflict (hc'.writable.valid b s k hF') ha'
  have oa := (get_array_order_gaps hc.writable.noConflict (hc.writable.valid b s k hF) ha).2 (hc.writable.inOrder b s k hF)
  have oa' := (get_array_order_gaps hc'.writable.noConflict (hc'.writable.valid b s k hF') ha').2 (hc'.writable.inOrder b s k hF')
  have htr := single_trains hc.writable hf
  have hhf := field_holds hf hF
  have hlab : ∀ t, labelled a' t = labelled a t := by
    intro t
    by_cases ht : t ∈ c.trainIds
    · have h1 := m2 t (by rw [htr]; exact ht) f (mem_single.2 rfl) hhf (by rw [hf.trains]; exact ht)
      obtain ⟨e1, e2⟩ := (hf.fields b s k hF).2.2 t ht
      by_cases hcov : Covered c s t
      · obtain ⟨g, hg, hh, htg⟩ := hcov
        rw [h1, e1 g hg hh htg, l2 t ht g hg hh htg]
      · rw [h1, e2 hcov, l3 t (Or.inr fun g hg hh htg => hcov ⟨g, hg, hh, htg⟩)]
        rfl
    · rw [l3 t (Or.inl ht), m3 t (Or.inl (by rw [htr]; exact ht))]
  obtain ⟨hr, hco⟩ := labelled_ext m1 l1 oa' oa hlab
  obtain ⟨t, ht, g, hg, hh, hne⟩ := hc.data b s k hF
  -- shape and type
  obtain ⟨d, hd, hs1, hs2⟩ := hat g hg hh
  obtain ⟨d', hd', hs1', hs2'⟩ := hat' f (mem_single.2 rfl) hhf
  obtain ⟨x, hx, hall⟩ := (hf.fields b s k hF).2.1
  obtain ⟨y, hy, hy1, hy2⟩ := hall g hg hh
  rw [hd] at hy
  obtain rfl := Except.ok.inj hy
  rw [hd'] at hx
  obtain rfl := Except.ok.inj hx
  -- there are labels
  have hrows : a.rows ≠ [] := by
    intro h0
    have htg : t ∈ g.trainIds := by
      by_contra h
      exact hne (fileEntries_notMem h)
    have := l2 t ht g hg hh htg
    unfold labelled at this
    rw [h0] at this
    simp at this
    exact hne this
  have hcs : ∀ z : LArr W, AllLabelled z → z.rows ≠ [] → z.coords = some (z.coords.getD []) := by
    intro z hz hzr
    cases hzc : z.coords with
    | some _ => rfl
    | none =>
      unfold AllLabelled at hz
      rw [hzc] at hz
      exact absurd (List.length_eq_zero_iff.1 hz.symm) hzr
  have hcoords : a'.coords = a.coords := by
    rw [hcs a' m1 (by rw [hr]; exact hrows), hcs a l1 hrows, hco]
  obtain ⟨r, co, sh, dt⟩ := a
  obtain ⟨r', co', sh', dt'⟩ := a'
  simp only at hr hcoords hs1 hs2 hs1' hs2' hy1 hy2 ⊢
  subst hr hcoords
  rw [hs1', hs2', hy1, hy2, ← hs1, ← hs2]

end Single

/-- C118. However often a collection is copied with `write` or `write_virtual`, each copy made from the one before, the last
copy has the same trains, sources and keys, and `get_array` gives the same array for each of them. -/
theorem copies_same {c d : DC V} (hc : Copyable c) (h : CopyOf c d) :
    Copyable d ∧ d.trainIds = c.trainIds ∧ (∀ s, s ∈ d.controlSources ↔ s ∈ c.controlSources) ∧
      (∀ s, s ∈ d.instrumentSources ↔ s ∈ c.instrumentSources) ∧ (∀ s k, Available d s k ↔ Available c s k) ∧
      ∀ s k, Available c s k → ∀ (W : Type) (roi : V → W), ∃ a, c.getArray s k roi = .ok a ∧ d.getArray s k roi = .ok a := by
  induction h with
  | self =>
    refine ⟨hc, rfl, fun _ => Iff.rfl, fun _ => Iff.rfl, fun _ _ => Iff.rfl, ?_⟩
    intro s k hk W roi
    have key : ∀ b, HasField c b s k → ∃ a, c.getArray s k roi = .ok a ∧ c.getArray s k roi = .ok a := by
      intro b hF
      obtain ⟨a, ha, -⟩ := (get_array_mismatch_gaps roi hc.writable.noConflict (hc.writable.valid b s k hF) hk).2
        (hc.same b s k hF)
      exact ⟨a, ha, ha⟩
    rcases field_of_available hk with hF | hF
    · exact key _ hF
    · exact key _ hF
  | @copy d d' kind hh name _ hw hs ho ih =>
    obtain ⟨i1, i2, i3, i4, i5, i6⟩ := ih
    obtain ⟨f, hi, hf⟩ := written_full i1 hw hs name
    rw [hi] at ho
    have hd' : d' = DC.single f := fromPath_eq.1 ho
    subst hd'
    refine ⟨single_copyable i1 hf, (single_trains i1.writable hf).trans i2, fun s => (single_control hf s).trans (i3 s),
      fun s => (single_instrument hf s).trans (i4 s), fun s k => (single_available hf s k).trans (i5 s k), ?_⟩
    intro s k hk W roi
    obtain ⟨a, ha, hda⟩ := i6 s k hk W roi
    refine ⟨a, ha, ?_⟩
    have hk' := (i5 s k).2 hk
    have key : ∀ b, HasField d b s k → (DC.single f).getArray s k roi = .ok a := by
      intro b hF
      obtain ⟨a', h1, h2⟩ := single_array i1 hf hF roi
      rw [hda] at h1
      obtain rfl := Except.ok.inj h1
      exact h2
    rcases field_of_available hk' with hF | hF
    · exact key _ hF
    · exact key _ hF

/-- Trains have one entry in the copy if they have one. -/
theorem single_oneEntry {c : DC V} {f : FileAccess V} (hf : FullCopy c f) {b : Bool} {s k : Str} (hF : HasField c b s k) {t : Nat}
    (ht : t ∈ c.trainIds) (h : OneEntry c b s k t) : OneEntry (DC.single f) b s k t := by
  obtain ⟨g, hg, hh, v, hv⟩ := h
  refine ⟨f, mem_single.2 rfl, field_holds hf hF, v, ?_⟩
  rw [full_entries hf hF ht hg hh (by rw [hv]; simp), hv]

theorem single_apart {c : DC V} {f : FileAccess V} (hf : FullCopy c f) (ha : NamesApart c) : NamesApart (DC.single f) where
  keys := fun b s p p' h h' => ha.keys b s p p' ((single_field hf b s _).1 h) ((single_field hf b s _).1 h')
  trainId := fun s hs => ha.trainId s ((single_all hf s).1 hs)
  index := fun s hs s' hs' => ha.index s ((single_control hf s).1 hs) s' ((single_instrument hf s').1 hs')

/-- A collection in which `write` succeeds, with keys for each source, is fit for copies. -/
theorem copyable_of_write {c : DC V} (hw : Writable c) (ha : NamesApart c) (hk : ∀ s ∈ c.allSources, ∃ k, Available c s k)
    {h : H5File V} (hwr : c.write = .ok h) : Copyable c ∧ ∀ s k, HasField c false s k → ∀ t ∈ c.trainIds, OneEntry c false s k t := by
  have hkr : KeysReadable c := by
    intro s hs
    obtain ⟨k, hk1⟩ := hk s hs
    obtain ⟨-, ks, h1, -⟩ := hk1
    exact ⟨ks, h1⟩
  have := (write_succeeds_iff hw ha hkr).1 ⟨h, hwr⟩
  exact ⟨⟨hw, hk, fun b s k hF => (this b s k hF).1, fun b s k hF => (this b s k hF).2.1⟩,
    fun s k hF => (this false s k hF).2.2 rfl⟩

/-- Files can be written of a collection fit for copies, if control data has one entry for each train. -/
theorem writeAs_succeeds {c : DC V} (hc : Copyable c) (ha : NamesApart c)
    (h1 : ∀ s k, HasField c false s k → ∀ t ∈ c.trainIds, OneEntry c false s k t) (kind : WriteKind) :
    ∃ h, c.writeAs kind = .ok h := by
  have hkr : KeysReadable c := by
    intro s hs
    obtain ⟨k, hk1⟩ := hc.keys s hs
    obtain ⟨-, ks, h1, -⟩ := hk1
    exact ⟨ks, h1⟩
  cases kind with
  | copy =>
    refine (write_succeeds_iff hc.writable ha hkr).2 ?_
    intro b s k hF
    refine ⟨hc.same b s k hF, hc.data b s k hF, ?_⟩
    rintro rfl
    exact h1 s k hF
  | virtual =>
    refine (write_virtual_succeeds_iff hc.writable ha hkr hc.same).2 ?_
    intro s k hF t ht g hg hh
    obtain ⟨g', hg', hh', v, hv⟩ := h1 s k hF t ht
    by_cases hz : fileEntries g false s k t = []
    · rw [hz]; simp
    · have htg : t ∈ g.trainIds := by
        by_contra h
        exact hz (fileEntries_notMem h)
      have htg' : t ∈ g'.trainIds := by
        by_contra h
        rw [fileEntries_notMem h] at hv
        simp at hv
      rw [same_file hc.writable.noConflict hg hg' hh hh' htg htg', hv]
      simp

/-- C118. A collection which can be written with `write` can be copied, with `write` or `write_virtual`, any number of times, each copy
made from the one before; each of these files can be opened. -/
theorem copies_succeed {c d : DC V} (hw : Writable c) (ha : NamesApart c) (hk : ∀ s ∈ c.allSources, ∃ k, Available c s k)
    (hwr : ∃ h, c.write = .ok h) (h : CopyOf c d) (kind : WriteKind) :
    ∃ h', d.writeAs kind = .ok h' ∧ ((∀ p ∈ h'.datasets, p.2.rows.length < 2 ^ 64) → ∀ name, ∃ d',
      DC.fromPath (FileAccess.init name h' none) = .ok d' ∧ CopyOf c d') := by
  obtain ⟨h0, hwr⟩ := hwr
  obtain ⟨hc, h1⟩ := copyable_of_write hw ha hk hwr
  have key : Copyable d ∧ NamesApart d ∧ ∀ s k, HasField d false s k → ∀ t ∈ d.trainIds, OneEntry d false s k t := by
    clear kind
    induction h with
    | self => exact ⟨hc, ha, h1⟩
    | @copy d d' kind hh name hcp hwd hs ho ih =>
      obtain ⟨i1, i2, i3⟩ := ih
      obtain ⟨f, hi, hf⟩ := written_full i1 hwd hs name
      rw [hi] at ho
      have hd' : d' = DC.single f := fromPath_eq.1 ho
      subst hd'
      refine ⟨single_copyable i1 hf, single_apart hf i2, ?_⟩
      intro s k hF t ht
      rw [single_trains i1.writable hf] at ht
      have hF' := (single_field hf false s k).1 hF
      exact single_oneEntry hf hF' ht (i3 s k hF' t ht)
  obtain ⟨k1, k2, k3⟩ := key
  obtain ⟨h', hw'⟩ := writeAs_succeeds k1 k2 k3 kind
  refine ⟨h', hw', fun hs name => ?_⟩
  obtain ⟨f, hi, hf⟩ := written_full k1 hw' hs name
  have ho : DC.fromPath (FileAccess.init name h' none) = .ok (DC.single f) := by
    rw [hi]; exact fromPath_eq.2 rfl
  exact ⟨DC.single f, ho, CopyOf.copy h hw' hs ho⟩

/-- `exWrite`, a run of two detector files and one control file, has a virtual copy of a copy, and all its copies have the same entries. -/
example : (∃ d, CopyOf exWrite d ∧ d.files.length = 1) ∧
    ∀ d, CopyOf exWrite d → ∃ a, d.getArray (ch! "D:o") (ch! "data.y") id = .ok a ∧ a.rows = [10, 11, 12, 20] := by
  have hb : (exWrite.write).toBool = true := by decide
  have hwr : ∃ h, exWrite.write = .ok h := by
    cases hw : exWrite.write with
    | error e => rw [hw] at hb; simp [Except.toBool] at hb
    | ok x => exact ⟨x, rfl⟩
  have hk : ∀ s ∈ exWrite.allSources, ∃ k, Available exWrite s k := by
    have e : exWrite.allSources = [ch! "C", ch! "D:o"] := by decide
    intro s hs
    have hs' := hs
    rw [e] at hs'
    simp only [List.mem_cons, List.not_mem_nil, or_false] at hs'
    rcases hs' with rfl | rfl
    · exact ⟨ch! "x.value", hs, [ch! "x.value"], by decide, by decide⟩
    · exact ⟨ch! "data.y", hs, [ch! "data.y"], by decide, by decide⟩
  constructor
  · obtain ⟨h, hw, ho⟩ := copies_succeed exWrite_writable exWrite_apart hk hwr CopyOf.self WriteKind.copy
    have hsz : ∀ p ∈ h.datasets, p.2.rows.length < 2 ^ 64 := by
      have : ∀ h, exWrite.writeAs WriteKind.copy = .ok h → ∀ p ∈ h.datasets, p.2.rows.length < 2 ^ 64 := by
        have e : (match exWrite.writeAs WriteKind.copy with
          | .ok h => decide (∀ p ∈ h.datasets, p.2.rows.length < 2 ^ 64)
          | .error _ => true) = true := by decide +kernel
        intro h hw
        rw [hw] at e
        simpa using e
      exact this h hw
    obtain ⟨d, hd, hcp⟩ := ho hsz (ch! "copy.h5")
    refine ⟨d, hcp, ?_⟩
    cases hi : FileAccess.init (ch! "copy.h5") h none with
    | error e => rw [hi] at hd; simp [DC.fromPath] at hd
    | ok f =>
      rw [hi] at hd
      have : d = DC.single f := fromPath_eq.1 hd
      rw [this]; rfl
  · intro d hd
    obtain ⟨h0, hw0⟩ := hwr
    have hc := (copyable_of_write exWrite_writable exWrite_apart hk hw0).1
    have hav : Available exWrite (ch! "D:o") (ch! "data.y") := ⟨by decide, [ch! "data.y"], by decide, by decide⟩
    obtain ⟨a, h1, h2⟩ := (copies_same hc hd).2.2.2.2.2 _ _ hav Nat id
    refine ⟨a, h2, ?_⟩
    have e : (match exWrite.getArray (ch! "D:o") (ch! "data.y") id with
      | .ok a => decide (a.rows = [10, 11, 12, 20])
      | .error _ => false) = true := by decide +kernel
    rw [h1] at e
    simpa using e

end KD

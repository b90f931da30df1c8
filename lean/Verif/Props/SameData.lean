/-
C137: what is read does not depend on how the data is spread over files.
-/
import Verif.Spec.SameData
import Verif.Spec.Stretch
import Verif.Props.AnyIndex
import Verif.Props.CopyTrains
import Verif.Props.SplitRun
import Verif.Props.FileOrder

namespace KD

open KD.Spec

variable {V W : Type}

/-- There is just one list of entries for a field in a train. -/
theorem holdsEntries_exists {c : DC V} (hc : NoConflict c.files) (b : Bool) (s k : Str) (t : Nat) :
    ∃ es, HoldsEntries c b s k t es ∧ (Covered c s t → ∃ f ∈ c.files, Holds f s ∧ t ∈ f.trainIds ∧ fileEntries f b s k t = es) := by
  by_cases hcov : Covered c s t
  · obtain ⟨f, hf, hh, ht⟩ := hcov
    refine ⟨fileEntries f b s k t, ⟨fun g hg hhg htg => ?_, fun h => absurd ⟨f, hf, hh, ht⟩ h⟩, fun _ => ⟨f, hf, hh, ht, rfl⟩⟩
    rw [same_file hc hg hf hhg hh htg ht]
  · exact ⟨[], ⟨fun f hf hh ht => absurd ⟨f, hf, hh, ht⟩ hcov, fun _ => rfl⟩, fun h => absurd h hcov⟩

theorem holdsEntries_unique {c : DC V} {b : Bool} {s k : Str} {t : Nat} {es es' : List V} (h : HoldsEntries c b s k t es)
    (h' : HoldsEntries c b s k t es') : es = es' := by
  by_cases hcov : Covered c s t
  · obtain ⟨f, hf, hh, ht⟩ := hcov
    rw [← h.1 f hf hh ht, h'.1 f hf hh ht]
  · rw [h.2 hcov, h'.2 hcov]

theorem sameData_refl (c : DC V) : SameData c c :=
  ⟨rfl, fun _ => Iff.rfl, fun _ => Iff.rfl, fun _ _ => Iff.rfl, fun _ _ _ _ _ _ _ => Iff.rfl⟩

theorem sameData_field {c d : DC V} (h : SameData c d) (b : Bool) (s k : Str) : HasField c b s k ↔ HasField d b s k := by
  rw [hasField_iff, hasField_iff, h.keys]
  cases b
  · simp [h.control]
  · simp [h.instrument]

theorem sameData_symm {c d : DC V} (h : SameData c d) : SameData d c :=
  ⟨h.trains.symm, fun s => (h.control s).symm, fun s => (h.instrument s).symm, fun s k => (h.keys s k).symm,
    fun b s k hF t ht es => (h.entries b s k ((sameData_field h b s k).2 hF) t (h.trains ▸ ht) es).symm⟩

theorem sameData_trans {c d e : DC V} (h : SameData c d) (h' : SameData d e) : SameData c e :=
  ⟨h.trains.trans h'.trains, fun s => (h.control s).trans (h'.control s), fun s => (h.instrument s).trans (h'.instrument s),
    fun s k => (h.keys s k).trans (h'.keys s k),
    fun b s k hF t ht es => (h.entries b s k hF t ht es).trans
      (h'.entries b s k ((sameData_field h b s k).1 hF) t (h.trains ▸ ht) es)⟩

theorem sameData_all {c d : DC V} (h : SameData c d) (s : Str) : s ∈ c.allSources ↔ s ∈ d.allSources := by
  rw [mem_all, mem_all, h.control, h.instrument]

/-! ### Arrays -/

theorem labelled_entries {c : DC V} {b : Bool} {s k : Str} {roi : V → W} {a : LArr W} (hc : NoConflict c.files)
    (hv : FollowsIn c c.trainIds b s k)
    (ha : c.getArray s k roi = .ok a) {t : Nat} (ht : t ∈ c.trainIds) {es : List V} (h : HoldsEntries c b s k t es) :
    labelled a t = es.map roi := by
  obtain ⟨-, l2, l3⟩ := get_array_follows hc hv ha
  by_cases hcov : Covered c s t
  · obtain ⟨f, hf, hh, htf⟩ := hcov
    rw [l2 t ht f hf hh htf, h.1 f hf hh htf]
  · rw [l3 t (.inr fun f hf hh htf => hcov ⟨f, hf, hh, htf⟩), h.2 hcov]
    rfl

/-- C137. `get_array` gives the same entries for each train, however the data is spread over files, if the entries of selected trains which
are next to each other follow each other; the same array if it is in order. -/
theorem data_array {c d : DC V} (h : SameData c d) (hc : NoConflict c.files) (hd : NoConflict d.files) {b : Bool} {s k : Str}
    (hF : HasField c b s k) (hv : FollowsIn c c.trainIds b s k) (hv' : FollowsIn d d.trainIds b s k) {roi : V → W} {a a' : LArr W}
    (ha : c.getArray s k roi = .ok a) (ha' : d.getArray s k roi = .ok a') :
    AllLabelled a ∧ AllLabelled a' ∧ (∀ t, labelled a' t = labelled a t) ∧
      (TrainsInOrder c b s k → TrainsInOrder d b s k → a'.rows = a.rows ∧ a'.coords.getD [] = a.coords.getD []) := by
  have hl := (get_array_follows hc hv ha).1
  have hl' := (get_array_follows hd hv' ha').1
  have hlab : ∀ t, labelled a' t = labelled a t := by
    intro t
    by_cases ht : t ∈ c.trainIds
    · obtain ⟨es, he, -⟩ := holdsEntries_exists hc b s k t
      rw [labelled_entries hc hv ha ht he, labelled_entries hd hv' ha' (h.trains ▸ ht) ((h.entries b s k hF t ht es).1 he)]
    · rw [(get_array_follows hc hv ha).2.2 t (.inl ht), (get_array_follows hd hv' ha').2.2 t (.inl (h.trains ▸ ht))]
  exact ⟨hl, hl', hlab, fun h1 h2 =>
    labelled_ext hl' hl ((get_array_order_gaps hd hv' ha').2 h2) ((get_array_order_gaps hc hv ha).2 h1) hlab⟩

/-! ### Trains -/

theorem shown_entries {c : DC V} (hc : NoConflict c.files) (hg : GoodData c) {b : Bool} {s k : Str} (hF : HasField c b s k) {t t' : Nat}
    {m : Dict Str (SourceData V)} (hm : c.trainFromId t = .ok (t', m)) {es : List V} (h : HoldsEntries c b s k t es) :
    shownAt m s k = shown es := by
  have hav := field_available hF
  have key : IndexedIn c b s k → (b = false → ∀ f ∈ c.files, Holds f s → OnePerTrain f s) → shownAt m s k = shown es := by
    intro hv h1
    obtain ⟨x1, x2⟩ := trainFromId_shown hc hv h1 hav hm
    by_cases hcov : Covered c s t
    · obtain ⟨f, hf, hh, htf⟩ := hcov
      rw [x1 f hf hh htf, h.1 f hf hh htf]
    · rw [x2 hcov, h.2 hcov]
      rfl
  cases b with
  | true => exact key (hg.instr s (by simpa using hF.1) k hav) (by simp)
  | false =>
    obtain ⟨h1, h2⟩ := (hg.ctrl s (by simpa using hF.1)).2 k hav
    exact key h1 (fun _ => h2)

/-- C137. `train_from_id` shows the same, however the data is spread over files. -/
theorem data_train {c d : DC V} (h : SameData c d) (hc : NoConflict c.files) (hd : NoConflict d.files) (hg : GoodData c) (hg' : GoodData d)
    {t : Nat} (ht : t ∈ c.trainIds) :
    ∃ m m', c.trainFromId t = .ok (t, m) ∧ d.trainFromId t = .ok (t, m') ∧ (∀ s, s ∈ m'.keys ↔ s ∈ m.keys) ∧
      ∀ s k, shownAt m' s k = shownAt m s k := by
  obtain ⟨m, hm⟩ := train_from_id_succeeds hg ht
  obtain ⟨m', hm'⟩ := train_from_id_succeeds hg' (h.trains ▸ ht)
  refine ⟨m, m', hm, hm', fun s => ?_, fun s k => ?_⟩
  · rw [(train_from_id_sources hm).2.2.2.1, (train_from_id_sources hm').2.2.2.1, sameData_all h]
  · by_cases hav : Available c s k
    · have key : ∀ b, HasField c b s k → shownAt m' s k = shownAt m s k := by
        intro b hF
        obtain ⟨es, he, -⟩ := holdsEntries_exists hc b s k t
        rw [shown_entries hc hg hF hm he, shown_entries hd hg' ((sameData_field h b s k).1 hF) hm' ((h.entries b s k hF t ht es).1 he)]
      rcases field_of_available hav with hF | hF
      · exact key _ hF
      · exact key _ hF
    · rw [shownAt_unavailable hc hm hav, shownAt_unavailable hd hm' (fun h' => hav ((h.keys s k).2 h'))]

/-- A control source with a train in a file has an entry there. -/
theorem onePerTrain_entries {f : FileAccess V} {s k : Str} (hv : IndexedField f false s k) (h1 : OnePerTrain f s) {t : Nat} (ht : t ∈ f.trainIds) :
    fileEntries f false s k t ≠ [] := by
  obtain ⟨pos, hp⟩ := List.getElem?_of_mem ht
  obtain ⟨fs, ns, ds, a, n, e1, e2, e3, e4, e5, e6⟩ := fileEntries_at hv hp
  have h2 : f.getIndex s (groupName false k) = .ok (List.range f.trainIds.length, List.replicate f.trainIds.length 1) := h1
  rw [h2] at e1
  obtain ⟨rfl, rfl⟩ := Prod.mk.inj (Except.ok.inj e1)
  have hn : n = 1 := by
    have := List.mem_of_getElem? e4
    exact (List.mem_replicate.1 this).2
  subst hn
  rw [e6]
  intro h0
  have hlen : (slice ds.rows a 1).length = 1 := by unfold slice; simp; omega
  rw [h0] at hlen
  simp at hlen

theorem data_complete_imp {c d : DC V} (h : SameData c d) (hc : NoConflict c.files) (hg : GoodData c)
    (hk : ∀ s ∈ c.allSources, ∃ k, Available c s k) {t : Nat} (ht : t ∈ c.trainIds) (hcomp : Complete c t) : Complete d t := by
  obtain ⟨h1, h2⟩ := hcomp
  have hne : ∀ b s k, HasField c b s k → ∀ es, HoldsEntries c b s k t es → es ≠ [] := by
    intro b s k hF es he
    have hav := field_available hF
    obtain ⟨f, hf, hh, htf⟩ := h1 s hav.1
    rw [← he.1 f hf hh htf]
    cases b with
    | true => exact h2 s (by simpa using hF.1) k hav f hf hh htf
    | false =>
      obtain ⟨h3, h4⟩ := (hg.ctrl s (by simpa using hF.1)).2 k hav
      exact onePerTrain_entries (h3 f hf hh) (h4 f hf hh) htf
  have hcov : ∀ b s k, HasField c b s k → Covered d s t := by
    intro b s k hF
    obtain ⟨es, he, -⟩ := holdsEntries_exists hc b s k t
    by_contra hn
    exact hne b s k hF es he (((h.entries b s k hF t ht es).1 he).2 hn)
  refine ⟨fun s hs => ?_, fun s hs k hav f hf hh htf => ?_⟩
  · obtain ⟨k, hk⟩ := hk s ((sameData_all h s).2 hs)
    rcases field_of_available hk with hF | hF
    · exact hcov _ _ _ hF
    · exact hcov _ _ _ hF
  · have hF : HasField c true s k := (sameData_field h true s k).2 ⟨by simpa using hs, hav.2⟩
    obtain ⟨es, he, -⟩ := holdsEntries_exists hc true s k t
    rw [((h.entries true s k hF t ht es).1 he).1 f hf hh htf]
    exact hne true s k hF es he

/-- C137. Iterating takes the same trains, with and without `require_all`, and shows the same, except that one may show an empty array
where the other shows nothing. -/
theorem data_trains {c d : DC V} (h : SameData c d) (hc : NoConflict c.files) (hd : NoConflict d.files) (hg : GoodData c) (hg' : GoodData d)
    (hk : ∀ s ∈ c.allSources, ∃ k, Available c s k) (req : Bool) :
    ∃ l l', c.trains none none req = .ok l ∧ d.trains none none req = .ok l' ∧ l'.map Prod.fst = l.map Prod.fst ∧
      ∀ t x x', (t, x) ∈ l → (t, x') ∈ l' → (∀ s, s ∈ x'.keys ↔ s ∈ x.keys) ∧
        ∀ s k, orEmpty (shownAt x' s k) = orEmpty (shownAt x s k) := by
  classical
  obtain ⟨l, hl⟩ := trains_succeeds hc hg req
  obtain ⟨l', hl'⟩ := trains_succeeds hd hg' req
  refine ⟨l, l', hl, hl', ?_, ?_⟩
  · cases req with
    | false => rw [(trains_agree hc (goodData_cat hg) hl).1 rfl, (trains_agree hd (goodData_cat hg') hl').1 rfl, h.trains]
    | true =>
      rw [trains_require_all hc hg (P := fun t => decide (Complete c t)) (by simp) hl,
        trains_require_all hd hg' (P := fun t => decide (Complete d t)) (by simp) hl', ← h.trains]
      apply List.filter_congr
      intro t ht
      have : Complete d t ↔ Complete c t :=
        ⟨data_complete_imp (sameData_symm h) hd hg' (fun s hs => by
          obtain ⟨k, hk⟩ := hk s ((sameData_all h s).2 hs)
          exact ⟨k, (h.keys s k).1 hk⟩) (h.trains ▸ ht), data_complete_imp h hc hg hk ht⟩
      simp only [this]
  · intro t x x' hx hx'
    obtain ⟨ht, -⟩ := (trains_agree hc (goodData_cat hg) hl).2 t x hx
    obtain ⟨m, m', hm, hm', hks, hs⟩ := data_train h hc hd hg hg' ht
    obtain ⟨a1, a2⟩ := iterate_shown hc hg hl hx hm
    obtain ⟨b1, b2⟩ := iterate_shown hd hg' hl' hx' hm'
    exact ⟨fun s => by rw [a1, b1, hks], fun s k => by rw [a2, b2, hs]⟩

/-- C137. The numbers of entries per train, where not 0, are the same. -/
theorem data_counts {c d : DC V} (h : SameData c d) (hc : NoConflict c.files) (hd : NoConflict d.files) {s k : Str}
    (hF : HasField c true s k) (hv : IndexedIn c true s k) (hv' : IndexedIn d true s k)
    (hne : ∀ f ∈ c.files, Holds f s → f.trainIds ≠ []) (hne' : ∀ f ∈ d.files, Holds f s → f.trainIds ≠ []) :
    ∃ l l', c.getDataCounts s k = .ok l ∧ d.getDataCounts s k = .ok l' ∧ (l.map Prod.fst).Nodup ∧ (l'.map Prod.fst).Nodup ∧
      ∀ t n, 0 < n → ((t, n) ∈ l' ↔ (t, n) ∈ l) := by
  have hF' := (sameData_field h true s k).1 hF
  obtain ⟨l, h1, h2, h3⟩ := get_data_counts_indexed hc hv hne (hasField_available hF)
  obtain ⟨l', i1, i2, i3⟩ := get_data_counts_indexed hd hv' hne' (hasField_available hF')
  have half : ∀ {x y : DC V}, SameData x y → NoConflict x.files → HasField x true s k → ∀ t ∈ x.trainIds, ∀ n, 0 < n →
      (∃ f ∈ x.files, Holds f s ∧ t ∈ f.trainIds ∧ n = (fileEntries f true s k t).length) →
      ∃ f ∈ y.files, Holds f s ∧ t ∈ f.trainIds ∧ n = (fileEntries f true s k t).length := by
    rintro x y hxy hx hFx t ht n hn ⟨f, hf, hh, htf, rfl⟩
    obtain ⟨es, he, -⟩ := holdsEntries_exists hx true s k t
    have he' := (hxy.entries true s k hFx t ht es).1 he
    rw [he.1 f hf hh htf] at hn ⊢
    by_cases hcov : Covered y s t
    · obtain ⟨g, hg, hhg, htg⟩ := hcov
      exact ⟨g, hg, hhg, htg, by rw [he'.1 g hg hhg htg]⟩
    · rw [he'.2 hcov] at hn; simp at hn
  refine ⟨l, l', h1, i1, h2, i2, fun t n hn => ?_⟩
  rw [h3, i3, ← h.trains]
  constructor
  · rintro ⟨ht, hx⟩; exact ⟨ht, half (sameData_symm h) hd hF' t (h.trains ▸ ht) n hn hx⟩
  · rintro ⟨ht, hx⟩; exact ⟨ht, half h hc hF t ht n hn hx⟩

/-! ### Collections with the same data -/

theorem entries_of_imp {c d : DC V} (hc : NoConflict c.files) {b : Bool} {s k : Str} {t : Nat}
    (h : ∀ es, HoldsEntries c b s k t es → HoldsEntries d b s k t es) (es : List V) :
    HoldsEntries c b s k t es ↔ HoldsEntries d b s k t es := by
  refine ⟨h es, fun he => ?_⟩
  obtain ⟨es', he', -⟩ := holdsEntries_exists hc b s k t
  rw [holdsEntries_unique he (h es' he')]
  exact he'

/-- C137. A copy of a collection, or a copy of a copy, has the same data. -/
theorem copy_sameData {c e : DC V} (hc : Copyable c) (h : CopyOf c e) : SameData c e := by
  obtain ⟨k1, k2, k3, k4, k5, -⟩ := copies_same hc h
  refine ⟨k2.symm, fun s => (k3 s).symm, fun s => (k4 s).symm, fun s k => (k5 s k).symm, fun b s k hF t ht => ?_⟩
  refine entries_of_imp hc.writable.noConflict (fun es he => ?_)
  obtain ⟨e1, e2⟩ := copy_entries hc h hF ht
  constructor
  · intro f hf hh htf
    by_cases hcov : Covered c s t
    · obtain ⟨g, hg, hhg, htg⟩ := hcov
      rw [e1 g hg hhg htg f hf hh htf, he.1 g hg hhg htg]
    · rw [e2 hcov f hf hh htf, he.2 hcov]
  · intro hn
    rcases copy_cases hc h with rfl | ⟨d, f, hd, hcd, hf, rfl⟩
    · exact he.2 hn
    · obtain ⟨j1, j2, j3, j4, -⟩ := copies_same hc hd
      have hs : s ∈ d.allSources := by
        have := (field_available hF).1
        rw [mem_all] at this ⊢
        rwa [j3, j4]
      exact absurd ⟨f, by simp [DC.single], field_holds_all hf hs, by rw [hf.trains, j2]; exact ht⟩ hn

/-- C137. Files given in another order have the same data. -/
theorem order_sameData {c d : DC V} (h : SameContents c d) (hk : SameKeys c.files) : SameData c d := by
  obtain ⟨h1, h2, h3⟩ := same_available h hk
  refine ⟨h.trains, h1, h2, h3, fun b s k _ t _ es => ?_⟩
  unfold HoldsEntries Covered
  simp only [h.files.mem_iff]

/-- C137. A run written in parts which together have all of it has the same data. -/
theorem split_sameData {c d : DC V} {parts : List (DC V × FileAccess V)} (hn : DifferentNames c) (hc : NoConflict c.files)
    (hp : Parts c parts) (hd : DC.fromPaths (parts.map (fun x => (.ok x.2 : R (FileAccess V)))) = .ok d)
    (hord : c.trainIds.Pairwise (· < ·)) (ht : ∀ t ∈ c.trainIds, ∃ x ∈ parts, t ∈ x.1.trainIds)
    (hs : ∀ s ∈ c.allSources, ∃ x ∈ parts, s ∈ x.1.allSources) (hk : ∀ x ∈ parts, PartsAgree x.1 c)
    (hall : ∀ s, ∀ t ∈ c.trainIds, Covered c s t → InParts parts s t) : SameData c d := by
  have hfull : ∀ x ∈ parts, FullCopy x.1 x.2 := fun x hx => writtenTo_full (hp.copyable x hx) (hp.written x hx)
  have hsub : ∀ x ∈ parts, ∀ s ∈ x.1.allSources, s ∈ c.allSources := by
    intro x hx s hs
    obtain ⟨i1, -, i3, -⟩ := derived_parts hn hc (hp.narrowed x hx).derived
    obtain ⟨h1, g, hg, hgs⟩ := mem_allSources.1 hs
    exact mem_allSources.2 ⟨i3 s h1, g, i1 g hg, hgs⟩
  have hne : parts ≠ [] := by
    rintro rfl
    simp [DC.fromPaths, Except.toOption] at hd
  obtain ⟨d', hd', h1, h2, h3, h4, h5, -⟩ := split_run (W := V) hn hc hp hne
  rw [hd] at hd'
  obtain rfl := Except.ok.inj hd'
  obtain ⟨hnc, hd'⟩ := parts_open hp hne
  rw [hd] at hd'
  obtain rfl := Except.ok.inj hd'
  have hfld : ∀ x ∈ parts, ∀ s ∈ x.1.allSources, ∀ b k, HasField x.1 b s k ↔ HasField c b s k :=
    fun x hx s hs b k => hk x hx s hs (hsub x hx s hs) b k
  -- sources of a part are of the same kind
  have hkind : ∀ x ∈ parts, ∀ s ∈ x.1.allSources, (s ∈ x.1.controlSources ↔ s ∈ c.controlSources) ∧
      (s ∈ x.1.instrumentSources ↔ s ∈ c.instrumentSources) := by
    intro x hx s hs
    obtain ⟨k, hk⟩ := (hp.copyable x hx).keys s hs
    have hkc : Available c s k := by
      rcases field_of_available hk with hF | hF
      · exact field_available ((hfld x hx s hs _ _).1 hF)
      · exact field_available ((hfld x hx s hs _ _).1 hF)
    have h0 := hfld x hx s hs false k
    have h1 := hfld x hx s hs true k
    rw [hasField_iff, hasField_iff] at h0 h1
    simp only [hk, hkc, and_true] at h0 h1
    exact ⟨by simpa using h0, by simpa using h1⟩
  refine ⟨?_, fun s => ?_, fun s => ?_, fun s k => ?_, fun b s k hF t htc => ?_⟩
  · refine eq_of_pairwise_lt hord h1 (fun t => ?_)
    rw [h2]
    refine ⟨ht t, ?_⟩
    rintro ⟨x, hx, hxt⟩
    exact (derived_parts hn hc (hp.narrowed x hx).derived).2.1 t hxt
  · rw [h3]
    constructor
    · intro h
      obtain ⟨x, hx, hxs⟩ := hs s (mem_all.2 (.inl h))
      exact ⟨x, hx, (hkind x hx s hxs).1.2 h⟩
    · rintro ⟨x, hx, h⟩; exact (hkind x hx s (mem_all.2 (.inl h))).1.1 h
  · rw [h4]
    constructor
    · intro h
      obtain ⟨x, hx, hxs⟩ := hs s (mem_all.2 (.inr h))
      exact ⟨x, hx, (hkind x hx s hxs).2.2 h⟩
    · rintro ⟨x, hx, h⟩; exact (hkind x hx s (mem_all.2 (.inr h))).2.1 h
  · rw [h5]
    constructor
    · intro h
      obtain ⟨x, hx, hxs⟩ := hs s h.1
      refine ⟨x, hx, ?_⟩
      rcases field_of_available h with hF | hF
      · exact field_available ((hfld x hx s hxs _ _).2 hF)
      · exact field_available ((hfld x hx s hxs _ _).2 hF)
    · rintro ⟨x, hx, h⟩
      rcases field_of_available h with hF | hF
      · exact field_available ((hfld x hx s h.1 _ _).1 hF)
      · exact field_available ((hfld x hx s h.1 _ _).1 hF)
  · refine entries_of_imp hc (fun es he => ⟨?_, ?_⟩)
    · intro f hf hh htf
      obtain ⟨x, hx, rfl⟩ := List.mem_map.1 hf
      have hxs := (full_holds (hfull x hx) s).1 hh
      rw [(hfull x hx).trains] at htf
      obtain ⟨e1, e2⟩ := ((hfull x hx).fields b s k ((hfld x hx s hxs b k).2 hF)).2.2 t htf
      by_cases hcov : Covered x.1 s t
      · obtain ⟨g, hg, hhg, htg⟩ := hcov
        rw [e1 g hg hhg htg, he.1 g ((derived_parts hn hc (hp.narrowed x hx).derived).1 g hg) hhg htg]
      · rw [e2 hcov]
        rw [narrowed_covered hn hc (hp.narrowed x hx) hxs htf] at hcov
        exact (he.2 hcov).symm
    · intro hncov
      apply he.2
      intro hcov
      obtain ⟨x, hx, hxs, hxt⟩ := hall s t htc hcov
      exact hncov ⟨x.2, List.mem_map.2 ⟨x, hx, rfl⟩, (full_holds (hfull x hx) s).2 hxs, by rw [(hfull x hx).trains]; exact hxt⟩

/-- The files of a run written in parts are in good order. -/
theorem split_good {c d : DC V} {parts : List (DC V × FileAccess V)} (hn : DifferentNames c) (hc : NoConflict c.files)
    (hp : Parts c parts) (hd : DC.fromPaths (parts.map (fun x => (.ok x.2 : R (FileAccess V)))) = .ok d)
    (hone : ∀ x ∈ parts, ∀ s k, HasField x.1 false s k → ∀ t ∈ x.1.trainIds, OneEntry x.1 false s k t) :
    NoConflict d.files ∧ GoodData d ∧ ∀ b s k, HasField d b s k → ValidIn d b s k := by
  have hfull : ∀ x ∈ parts, FullCopy x.1 x.2 := fun x hx => writtenTo_full (hp.copyable x hx) (hp.written x hx)
  have hne : parts ≠ [] := by
    rintro rfl
    simp [DC.fromPaths, Except.toOption] at hd
  obtain ⟨d', hd', -, -, h3, h4, h5, -⟩ := split_run (W := V) hn hc hp hne
  rw [hd] at hd'
  obtain rfl := Except.ok.inj hd'
  obtain ⟨hnc, hd'⟩ := parts_open hp hne
  rw [hd] at hd'
  obtain rfl := Except.ok.inj hd'
  have hfld : ∀ b s k, HasField (DC.ofFiles (parts.map Prod.snd)) b s k → ∀ x ∈ parts, s ∈ x.1.allSources → HasField x.1 b s k := by
    intro b s k hF x hx hxs
    rw [hasField_iff] at hF
    obtain ⟨hb, hav⟩ := hF
    obtain ⟨y, hy, hyk⟩ := (h5 s k).1 hav
    have hz : ∃ z ∈ parts, (if b = true then s ∈ z.1.instrumentSources else s ∈ z.1.controlSources) := by
      cases b
      · simpa [h3] using hb
      · simpa [h4] using hb
    obtain ⟨z, hz, hzb⟩ := hz
    have hzs : s ∈ z.1.allSources := by
      rw [mem_all]
      cases b
      · exact .inl (by simpa using hzb)
      · exact .inr (by simpa using hzb)
    obtain ⟨k', hk'⟩ := (hp.copyable z hz).keys s hzs
    have hF' := (hp.agree z hz x hx s hzs hxs b k').1 (hasField_iff.2 ⟨hzb, hk'⟩)
    exact hasField_iff.2 ⟨(hasField_iff.1 hF').1, agree_available (hp.agree y hy x hx) hxs hyk⟩
  have hvalid : ∀ b s k, HasField (DC.ofFiles (parts.map Prod.snd)) b s k → ValidIn (DC.ofFiles (parts.map Prod.snd)) b s k := by
    intro b s k hF f hf hh
    obtain ⟨x, hx, rfl⟩ := List.mem_map.1 hf
    exact ((hfull x hx).fields b s k (hfld b s k hF x hx ((full_holds (hfull x hx) s).1 hh))).1
  have hcat : ∀ s ∈ (DC.ofFiles (parts.map Prod.snd)).controlSources, s ∉ (DC.ofFiles (parts.map Prod.snd)).instrumentSources := by
    intro s hs hi
    obtain ⟨x, hx, hxs⟩ := (h3 s).1 hs
    have hxa : s ∈ x.1.allSources := mem_all.2 (.inl hxs)
    obtain ⟨k, hk⟩ := (hp.copyable x hx).keys s hxa
    have hF : HasField (DC.ofFiles (parts.map Prod.snd)) true s k :=
      hasField_iff.2 ⟨by simpa using hi, (h5 s k).2 ⟨x, hx, hk⟩⟩
    exact ((copyable_field_valid (hp.copyable x hx) hk).2 hxs).2 (by simpa using (hfld _ _ _ hF x hx hxa).1)
  refine ⟨hnc, ⟨?_, ?_, ?_⟩, hvalid⟩
  · intro s hs
    have : ∃ x ∈ parts, s ∈ x.1.allSources := by
      rcases mem_all.1 hs with h | h
      · obtain ⟨x, hx, hxs⟩ := (h3 s).1 h; exact ⟨x, hx, mem_all.2 (.inl hxs)⟩
      · obtain ⟨x, hx, hxs⟩ := (h4 s).1 h; exact ⟨x, hx, mem_all.2 (.inr hxs)⟩
    obtain ⟨x, hx, hxs⟩ := this
    obtain ⟨k, hk⟩ := (hp.copyable x hx).keys s hxs
    obtain ⟨-, ks, hks, -⟩ := (h5 s k).2 ⟨x, hx, hk⟩
    exact ⟨ks, hks⟩
  · intro s hs k hav f hf hh
    exact (hvalid true s k (hasField_iff.2 ⟨by simpa using hs, hav⟩) f hf hh).indexed
  · intro s hs
    refine ⟨hcat s hs, fun k hav => ?_⟩
    have hF : HasField (DC.ofFiles (parts.map Prod.snd)) false s k := hasField_iff.2 ⟨by simpa using hs, hav⟩
    refine ⟨fun f hf hh => (hvalid false s k hF f hf hh).indexed, fun f hf hh => ?_⟩
    obtain ⟨x, hx, rfl⟩ := List.mem_map.1 hf
    have hFx := hfld false s k hF x hx ((full_holds (hfull x hx) s).1 hh)
    exact full_onePerTrain (hfull x hx) hFx (hone x hx s k hFx)

/-! ### Examples -/

/-- The example run in two parts, in separate files: the files together have the data of the run, and
show the same trains. -/
example : ∃ p q f g d, WrittenTo p f ∧ WrittenTo q g ∧ DC.fromPaths [.ok g, .ok f] = .ok d ∧ SameData exWrite d ∧
    ∃ l l', exWrite.trains none none true = .ok l ∧ d.trains none none true = .ok l' ∧ l'.map Prod.fst = l.map Prod.fst ∧
      l.map Prod.fst = [1, 2, 3] := by
  obtain ⟨p, q, f, g, hp, hq, tf, tg, hparts, ep, eq, sp, sq⟩ := exWrite_split
  obtain ⟨hc, hone⟩ := exWrite_copyable
  have hr := exWrite_regular
  have hn : DifferentNames exWrite := by unfold DifferentNames; decide
  obtain ⟨d, hd, -⟩ := split_run (W := Nat) hn hr.conflict hparts (by simp)
  have hag : ∀ x ∈ [(q, g), (p, f)], PartsAgree x.1 exWrite := by
    simp only [List.forall_mem_cons]
    exact ⟨fun s h1 _ b k => train_part_fields hr hq h1 b k, fun s h1 _ b k => train_part_fields hr hp h1 b k, by simp⟩
  have hst : ∀ s, s ∈ exWrite.allSources → s ∈ p.allSources ∧ s ∈ q.allSources := by
    rw [sp, sq]
    have : exWrite.allSources = [ch! "C", ch! "D:o"] := by decide
    rw [this]
    exact fun s h => ⟨h, h⟩
  have htt : ∀ t ∈ exWrite.trainIds, t ∈ p.trainIds ∨ t ∈ q.trainIds := by rw [ep, eq]; decide
  have hsd : SameData exWrite d := by
    refine split_sameData hn hr.conflict hparts hd (by decide) (fun t ht => ?_) (fun s hs => ?_) hag (fun s t ht hcov => ?_)
    · rcases htt t ht with h | h
      · exact ⟨(p, f), by simp, h⟩
      · exact ⟨(q, g), by simp, h⟩
    · exact ⟨(p, f), by simp, (hst s hs).1⟩
    · have hs : s ∈ exWrite.allSources := by
        obtain ⟨f, hf, hh, -⟩ := hcov
        refine mem_allSources.2 ⟨?_, f, hf, hh⟩
        have hm : ∀ f ∈ exWrite.files, ∀ s ∈ f.controlSources ++ f.instrumentSources, s ∈ exWrite.selection.keys := by decide
        exact hm f hf s (List.mem_append.2 hh)
      rcases htt t ht with h | h
      · exact ⟨(p, f), by simp, (hst s hs).1, h⟩
      · exact ⟨(q, g), by simp, (hst s hs).2, h⟩
  have honep : ∀ x ∈ [(q, g), (p, f)], ∀ s k, HasField x.1 false s k → ∀ t ∈ x.1.trainIds, OneEntry x.1 false s k t := by
    have key : ∀ {x : DC Nat} {tr}, exWrite.selectTrains tr = .ok x → ∀ s k, HasField x false s k → ∀ t ∈ x.trainIds, OneEntry x false s k t := by
      intro x tr hx s k hF t ht
      obtain ⟨-, hkeep, htr⟩ := select_trains_files hr.conflict hx
      obtain ⟨g, hg, hh, v, hv⟩ := hone s k ((train_part_fields hr hx (field_available hF).1 _ _).1 hF) t (htr t ht)
      have htg : t ∈ g.trainIds := by
        by_contra hx
        rw [fileEntries_notMem hx] at hv
        simp at hv
      exact ⟨g, (hkeep g hg).2 ⟨t, ht, htg⟩, hh, v, hv⟩
    simp only [List.forall_mem_cons]
    exact ⟨key hq, key hp, by simp⟩
  obtain ⟨hdc, hdg, -⟩ := split_good hn hr.conflict hparts hd honep
  obtain ⟨l, l', h1, h2, h3, -⟩ := data_trains hsd hr.conflict hdc exWrite_good hdg hc.keys true
  refine ⟨p, q, f, g, d, tf, tg, hd, hsd, l, l', h1, h2, h3, ?_⟩
  have : (exWrite.trains none none true).map (fun l => l.map Prod.fst) = .ok [1, 2, 3] := by decide
  rw [h1] at this
  exact Except.ok.inj this

end KD

/-
C137: series and tables do not depend on how the data is spread over files.
-/
import Verif.Props.SameData
import Verif.Props.FrameOrder

namespace KD

open KD.Spec

variable {V W : Type}

/-- Control data has no train with several entries. -/
theorem onePerTrain_notSeveral {f : FileAccess V} {s k : Str} (hv : IndexedField f false s k) (h1 : OnePerTrain f s) :
    ¬ Several f false s k := by
  rintro ⟨t, ht⟩
  have htf : t ∈ f.trainIds := by
    by_contra hn
    rw [fileEntries_notMem hn] at ht
    simp at ht
  obtain ⟨pos, hp⟩ := List.getElem?_of_mem htf
  obtain ⟨fs, ns, ds, a, n, e1, e2, e3, e4, e5, e6⟩ := fileEntries_at hv hp
  have h2 : f.getIndex s (groupName false k) = .ok (List.range f.trainIds.length, List.replicate f.trainIds.length 1) := h1
  rw [h2] at e1
  obtain ⟨rfl, rfl⟩ := Prod.mk.inj (Except.ok.inj e1)
  have hn : n = 1 := (List.mem_replicate.1 (List.mem_of_getElem? e4)).2
  subst hn
  rw [e6] at ht
  have : (slice ds.rows a 1).length ≤ 1 := by unfold slice; simp
  omega

theorem sameData_several_imp {c d : DC V} (h : SameData c d) (hc : NoConflict c.files) {b : Bool} {s k : Str} (hF : HasField c b s k)
    (hs : SeveralSelected c b s k) : SeveralSelected d b s k := by
  obtain ⟨t, ht, g, hg, hh, hlt⟩ := hs
  have htg : t ∈ g.trainIds := by
    by_contra hn
    rw [fileEntries_notMem hn] at hlt
    simp at hlt
  obtain ⟨es, he, -⟩ := holdsEntries_exists hc b s k t
  have he' := (h.entries b s k hF t ht es).1 he
  rw [he.1 g hg hh htg] at hlt
  by_cases hcov : Covered d s t
  · obtain ⟨g', hg', hh', htg'⟩ := hcov
    exact ⟨t, h.trains ▸ ht, g', hg', hh', by rw [he'.1 g' hg' hh' htg']; exact hlt⟩
  · rw [he'.2 hcov] at hlt; simp at hlt

/-- The rows of a series for a train, from the entries of the train. -/
theorem series_rows {c : DC V} {b : Bool} {s k : Str} (hc : NoConflict c.files) (hs : SeriesIn c b s k) {l : List (SeriesRow V)}
    (hl : c.getSeries s k = .ok l) (hav : Available c s k) (hsev : (∃ g ∈ c.files, Holds g s ∧ Several g b s k) → SeveralSelected c b s k)
    {t : Nat} (ht : t ∈ c.trainIds) {es : List V} (he : HoldsEntries c b s k t es) :
    (l.filter (fun r => r.tid = t)).map SeriesRow.val = es ∧
    (SeveralSelected c b s k → ∀ ps, HoldsEntries c true s (pulseIdKey k) t ps →
      (l.filter (fun r => r.tid = t)).map SeriesRow.pulse = ps.map some) ∧
    (¬ SeveralSelected c b s k → (l.filter (fun r => r.tid = t)).map SeriesRow.pulse = List.replicate es.length none) := by
  obtain ⟨c1, c2⟩ := get_series_exact hc hs hl
  obtain ⟨-, -, s3⟩ := (get_series_succeeds hs hav).1 ⟨l, hl⟩
  by_cases hcov : Covered c s t
  · obtain ⟨g, hg, hh, htg⟩ := hcov
    obtain ⟨v1, p1, n1⟩ := c1 t ht g hg hh htg
    have hv : (l.filter (fun r => r.tid = t)).map SeriesRow.val = es := by rw [v1, he.1 g hg hh htg]
    refine ⟨hv, fun hsv ps hps => ?_, fun hsv => ?_⟩
    · have hall : Several g b s k := by
        obtain ⟨t', -, g', hg', hh', hlt⟩ := hsv
        rcases s3 with h3 | h3
        · exact h3 g hg hh
        · exact absurd ⟨t', hlt⟩ (h3 g' hg' hh')
      rw [p1 hall, hps.1 g hg hh htg]
    · have hno : ¬ Several g b s k := fun hx => hsv (hsev ⟨g, hg, hh, hx⟩)
      rw [List.eq_replicate_iff]
      refine ⟨by rw [← hv]; simp, fun b hb => ?_⟩
      obtain ⟨r, hr, rfl⟩ := List.mem_map.1 hb
      exact n1 hno r (List.mem_filter.1 hr).1 (by simpa using (List.mem_filter.1 hr).2)
  · have hnil : l.filter (fun r => r.tid = t) = [] := by
      rw [List.filter_eq_nil_iff]
      intro r hr
      simpa using c2 t (.inr fun g hg hh htg => hcov ⟨g, hg, hh, htg⟩) r hr
    rw [hnil, he.2 hcov]
    refine ⟨rfl, fun _ ps hps => ?_, fun _ => rfl⟩
    rw [hps.2 hcov]
    rfl

/-- C137. `get_series` has the same rows for each train, with the same pulse IDs, however the data is spread over files, if a field with
several entries for some train of a file has several for some selected train, and if the pulse IDs are selected too. -/
theorem data_series {c d : DC V} (h : SameData c d) (hc : NoConflict c.files) (hd : NoConflict d.files) {b : Bool} {s k : Str}
    (hF : HasField c b s k) (hs : SeriesIn c b s k) (hs' : SeriesIn d b s k)
    (hsev : (∃ g ∈ c.files, Holds g s ∧ Several g b s k) → SeveralSelected c b s k)
    (hsev' : (∃ g ∈ d.files, Holds g s ∧ Several g b s k) → SeveralSelected d b s k)
    (hpulse : SeveralSelected c b s k → HasField c true s (pulseIdKey k)) {l l' : List (SeriesRow V)} (hl : c.getSeries s k = .ok l)
    (hl' : d.getSeries s k = .ok l') : ∀ t, l'.filter (fun r => r.tid = t) = l.filter (fun r => r.tid = t) := by
  have hF' := (sameData_field h b s k).1 hF
  intro t
  by_cases ht : t ∈ c.trainIds
  · obtain ⟨es, he, -⟩ := holdsEntries_exists hc b s k t
    obtain ⟨v, p, n⟩ := series_rows hc hs hl (hasField_available hF) hsev ht he
    obtain ⟨v', p', n'⟩ := series_rows hd hs' hl' (hasField_available hF') hsev' (h.trains ▸ ht) ((h.entries b s k hF t ht es).1 he)
    refine seriesRows_ext (t := t) (fun r hr => by simpa using (List.mem_filter.1 hr).2)
      (fun r hr => by simpa using (List.mem_filter.1 hr).2) (by rw [v, v']) ?_
    by_cases hsv : SeveralSelected c b s k
    · obtain ⟨ps, hps, -⟩ := holdsEntries_exists hc true s (pulseIdKey k) t
      rw [p hsv ps hps, p' (sameData_several_imp h hc hF hsv) ps ((h.entries true s _ (hpulse hsv) t ht ps).1 hps)]
    · rw [n hsv, n' (fun hx => hsv (sameData_several_imp (sameData_symm h) hd hF' hx))]
  · have hnil : ∀ {c : DC V} {l : List (SeriesRow V)}, NoConflict c.files → SeriesIn c b s k → c.getSeries s k = .ok l → t ∉ c.trainIds →
        l.filter (fun r => r.tid = t) = [] := by
      intro c l hc hs hl ht
      rw [List.filter_eq_nil_iff]
      intro r hr
      simpa using (get_series_exact hc hs hl).2 t (.inl ht) r hr
    rw [hnil hc hs hl ht, hnil hd hs' hl' (h.trains ▸ ht)]

/-- C137. Control data: no condition about several entries or pulse IDs. -/
theorem data_series_control {c d : DC V} (h : SameData c d) (hc : NoConflict c.files) (hd : NoConflict d.files) {s k : Str}
    (hF : HasField c false s k) (hs : SeriesIn c false s k) (hs' : SeriesIn d false s k) {l l' : List (SeriesRow V)}
    (hl : c.getSeries s k = .ok l) (hl' : d.getSeries s k = .ok l') :
    ∀ t, l'.filter (fun r => r.tid = t) = l.filter (fun r => r.tid = t) := by
  have hno : ∀ {c : DC V}, SeriesIn c false s k → ¬ ∃ g ∈ c.files, Holds g s ∧ Several g false s k := by
    rintro c hs ⟨g, hg, hh, hsv⟩
    exact onePerTrain_notSeveral (hs g hg hh).valid.indexed ((hs g hg hh).single rfl) hsv
  refine data_series h hc hd hF hs hs' (fun hx => absurd hx (hno hs)) (fun hx => absurd hx (hno hs')) ?_ hl hl'
  rintro ⟨t, -, g, hg, hh, hlt⟩
  exact absurd ⟨g, hg, hh, t, hlt⟩ (hno hs)

/-- C137. `get_dataframe` has the same columns, maybe in another order, with the same rows for each train, however the data is spread
over files. -/
theorem data_frame {c d : DC V} (h : SameData c d) (hc : NoConflict c.files) (hd : NoConflict d.files)
    (hs : ∀ b s k, HasField c b s k → SeriesIn c b s k ∧ SeriesIn d b s k ∧
      ((∃ g ∈ c.files, Holds g s ∧ Several g b s k) → SeveralSelected c b s k) ∧
      ((∃ g ∈ d.files, Holds g s ∧ Several g b s k) → SeveralSelected d b s k) ∧
      (SeveralSelected c b s k → HasField c true s (pulseIdKey k)))
    {ts : Bool} {cols cols' : List (Str × List (SeriesRow V))} (hcols : c.getDataframe ts = .ok cols) (hcols' : d.getDataframe ts = .ok cols') :
    ∃ m, m.Perm cols' ∧ List.Forall₂ (fun col col' => col.1 = col'.1 ∧
      ∀ t, col'.2.filter (fun r => r.tid = t) = col.2.filter (fun r => r.tid = t)) cols m := by
  obtain ⟨-, pairs, hnd, hmem, hall⟩ := get_dataframe_columns hcols
  obtain ⟨-, pairs', hnd', hmem', hall'⟩ := get_dataframe_columns hcols'
  have hperm : pairs.Perm pairs' := by
    rw [List.perm_ext_iff_of_nodup hnd hnd']
    rintro ⟨s, k⟩
    rw [hmem, hmem', h.keys]
  obtain ⟨m, hm1, hm2⟩ := List.perm_comp_forall₂ hperm hall'
  refine ⟨m, hm2, ?_⟩
  have hin : ∀ p ∈ pairs, ∃ b, HasField c b p.1 p.2 := by
    intro p hp
    rcases field_of_available ((hmem p.1 p.2).1 hp).1 with hF | hF
    · exact ⟨_, hF⟩
    · exact ⟨_, hF⟩
  clear hnd hmem hall' hmem' hnd' hperm hm2 hcols hcols'
  induction hall generalizing m with
  | nil => cases hm1; exact .nil
  | cons h1 _ ih =>
    cases hm1 with
    | cons h2 hm =>
      refine .cons ⟨columnName_unique h1.1 h2.1, ?_⟩ (ih _ hm (fun p hp => hin p (List.mem_cons_of_mem _ hp)))
      obtain ⟨b, hF⟩ := hin _ List.mem_cons_self
      obtain ⟨a1, a2, a3, a4, a5⟩ := hs b _ _ hF
      exact data_series h hc hd hF a1 a2 a3 a4 a5 h1.2 h2.2

/-! ### Example -/

theorem holdsEntries_of {c : DC V} (hc : NoConflict c.files) {f : FileAccess V} (hf : f ∈ c.files) {b : Bool} {s k : Str} (hh : Holds f s)
    {t : Nat} (ht : t ∈ f.trainIds) (es : List V) : HoldsEntries c b s k t es ↔ fileEntries f b s k t = es := by
  refine ⟨fun h => h.1 f hf hh ht, fun h => ⟨fun g hg hhg htg => ?_, fun hn => absurd ⟨f, hf, hh, ht⟩ hn⟩⟩
  rw [same_file hc hg hf hhg hh htg ht]
  exact h

/-- Control data in one file. -/
def exWhole : DC Nat where
  files := [exCtrl (ch! "c") [1, 2, 3, 4] [0, 1, 2, 3] [1, 1, 1, 1] [31, 32, 33, 34]]
  selection := [(ch! "C", none)]
  trainIds := [1, 2, 3]
  ctxCloses := true

/-- The same data in two files. -/
def exHalves : DC Nat where
  files := [exCtrl (ch! "b") [3, 4] [0, 1] [1, 1] [33, 34], exCtrl (ch! "a") [1, 2] [0, 1] [1, 1] [31, 32]]
  selection := [(ch! "C", none)]
  trainIds := [1, 2, 3]
  ctxCloses := true

theorem exHalves_series : SeriesIn exWhole false (ch! "C") (ch! "x.value") ∧ SeriesIn exHalves false (ch! "C") (ch! "x.value") := by
  have key : ∀ {n : Str} {ts : List Nat} {vs : List Nat} (h1 : ts.Pairwise (· < ·)) (h2 : ts ≠ []) (h3 : ts.length ≤ vs.length) (h4 : ts.length < 2 ^ 64),
      SeriesField (exCtrl n ts (List.range ts.length) (List.replicate ts.length 1) vs) false (ch! "C") (ch! "x.value") := by
    intro n ts vs h1 h2 h3 h4
    have k1 := exCtrl_validField (name := n) h1 h2 h3 h4
    have k2 := (exCtrl_valid (name := n) (h1.imp (fun h => Nat.ne_of_lt h)) h3 h4).2
    refine ⟨k1, ⟨_, _, k2, ?_⟩, fun _ => k2, by simp⟩
    cases ts with
    | nil => exact absurd rfl h2
    | cons a l => simp [exCtrl, List.range_succ_eq_map]
  constructor
  · intro f hf _
    obtain rfl := List.mem_singleton.1 hf
    exact key (ts := [1, 2, 3, 4]) (by decide) (by decide) (by decide) (by decide)
  · intro f hf _
    rcases List.mem_cons.1 hf with rfl | hf
    · exact key (ts := [3, 4]) (by decide) (by decide) (by decide) (by decide)
    · obtain rfl := List.mem_singleton.1 hf
      exact key (ts := [1, 2]) (by decide) (by decide) (by decide) (by decide)

theorem exHalves_same : SameData exWhole exHalves := by
  have hc : NoConflict exWhole.files := hasConflicts_false.1 (by decide)
  have hd : NoConflict exHalves.files := hasConflicts_false.1 (by decide)
  have e1 : exWhole.allSources = [ch! "C"] := by decide
  have e2 : exHalves.allSources = [ch! "C"] := by decide
  have k1 : exWhole.keysForSource (ch! "C") = .ok [ch! "x.value"] := by decide
  have k2 : exHalves.keysForSource (ch! "C") = .ok [ch! "x.value"] := by decide
  have hav : ∀ s k, Available exWhole s k ↔ s = ch! "C" ∧ k = ch! "x.value" := by
    intro s k
    unfold Available
    rw [e1, List.mem_singleton]
    refine ⟨?_, ?_⟩
    · rintro ⟨rfl, ks, h, hk⟩
      rw [k1] at h
      obtain rfl := Except.ok.inj h
      exact ⟨rfl, List.mem_singleton.1 hk⟩
    · rintro ⟨rfl, rfl⟩
      exact ⟨rfl, _, k1, by simp⟩
  have hav' : ∀ s k, Available exHalves s k ↔ s = ch! "C" ∧ k = ch! "x.value" := by
    intro s k
    unfold Available
    rw [e2, List.mem_singleton]
    refine ⟨?_, ?_⟩
    · rintro ⟨rfl, ks, h, hk⟩
      rw [k2] at h
      obtain rfl := Except.ok.inj h
      exact ⟨rfl, List.mem_singleton.1 hk⟩
    · rintro ⟨rfl, rfl⟩
      exact ⟨rfl, _, k2, by simp⟩
  have c1 : exWhole.controlSources = [ch! "C"] := by decide
  have c2 : exHalves.controlSources = [ch! "C"] := by decide
  have i1 : exWhole.instrumentSources = [] := by decide
  have i2 : exHalves.instrumentSources = [] := by decide
  refine ⟨rfl, fun s => by rw [c1, c2], fun s => by rw [i1, i2], fun s k => by rw [hav, hav'], ?_⟩
  intro b s k hF t ht es
  obtain ⟨rfl, rfl⟩ := (hav s k).1 (hasField_available hF)
  obtain rfl : b = false := by
    cases b with
    | false => rfl
    | true => exact absurd hF.1 (by simp [i1])
  have hm : t = 1 ∨ t = 2 ∨ t = 3 := by simpa [exWhole] using ht
  have w : ∀ t ∈ [1, 2, 3], ∀ es, HoldsEntries exWhole false (ch! "C") (ch! "x.value") t es ↔ _ = es := fun t ht es =>
    holdsEntries_of hc (f := exCtrl (ch! "c") [1, 2, 3, 4] [0, 1, 2, 3] [1, 1, 1, 1] [31, 32, 33, 34]) (by simp [exWhole])
      (.inl (by decide)) ((by decide : ∀ t ∈ [1, 2, 3], t ∈ [1, 2, 3, 4]) t ht) es
  have w3 := holdsEntries_of (b := false) (k := ch! "x.value") hd (f := exCtrl (ch! "b") [3, 4] [0, 1] [1, 1] [33, 34]) (by simp [exHalves])
      (s := ch! "C") (.inl (by decide)) (t := 3) (by decide) es
  have w12 : ∀ t ∈ [1, 2], ∀ es, HoldsEntries exHalves false (ch! "C") (ch! "x.value") t es ↔ _ = es := fun t ht es =>
    holdsEntries_of hd (f := exCtrl (ch! "a") [1, 2] [0, 1] [1, 1] [31, 32]) (by simp [exHalves])
      (.inl (by decide)) ht es
  rcases hm with rfl | rfl | rfl
  · rw [w 1 (by decide), w12 1 (by decide)]
    exact Iff.rfl
  · rw [w 2 (by decide), w12 2 (by decide)]
    exact Iff.rfl
  · rw [w 3 (by decide), w3]
    exact Iff.rfl

/-- The files of the example, one with all the trains and two with some of them, meet the hypotheses: the table of one tells what is in
the table of the other. -/
example : ∃ l', exHalves.getSeries (ch! "C") (ch! "x.value") = .ok l' ∧ l'.filter (fun r => r.tid = 3) = [⟨3, none, 33⟩] ∧
    ∃ cols', exHalves.getDataframe false = .ok cols' ∧ ∃ m, m.Perm cols' ∧ List.Forall₂ (fun col col' => col.1 = col'.1 ∧
      ∀ t, col'.2.filter (fun r => r.tid = t) = col.2.filter (fun r => r.tid = t))
        [(ch! "C/x", [(⟨1, none, 31⟩ : SeriesRow Nat), ⟨2, none, 32⟩, ⟨3, none, 33⟩])] m := by
  obtain ⟨s1, s2⟩ := exHalves_series
  have hc : NoConflict exWhole.files := hasConflicts_false.1 (by decide)
  have hd : NoConflict exHalves.files := hasConflicts_false.1 (by decide)
  have hF : HasField exWhole false (ch! "C") (ch! "x.value") := ⟨by decide, [ch! "x.value"], by decide, by decide⟩
  have hl : exWhole.getSeries (ch! "C") (ch! "x.value") = .ok [⟨1, none, 31⟩, ⟨2, none, 32⟩, ⟨3, none, 33⟩] := by decide
  obtain ⟨l', hl'⟩ : ∃ l', exHalves.getSeries (ch! "C") (ch! "x.value") = .ok l' := ⟨_, by rfl⟩
  refine ⟨l', hl', ?_, ?_⟩
  · rw [data_series_control exHalves_same hc hd hF s1 s2 hl hl' 3]
    decide
  · obtain ⟨cols', hcols'⟩ : ∃ cols', exHalves.getDataframe false = .ok cols' := ⟨_, by rfl⟩
    refine ⟨cols', hcols', data_frame exHalves_same hc hd (fun b s k hF => ?_) (ts := false) (by decide) hcols'⟩
    have i1 : exWhole.instrumentSources = [] := by decide
    obtain rfl : b = false := by
      cases b with
      | false => rfl
      | true => exact absurd hF.1 (by simp [i1])
    have e1 : exWhole.allSources = [ch! "C"] := by decide
    have k1 : exWhole.keysForSource (ch! "C") = .ok [ch! "x.value"] := by decide
    obtain ⟨hs, ks, h1, h2⟩ := hasField_available hF
    rw [e1, List.mem_singleton] at hs
    subst hs
    rw [k1] at h1
    obtain rfl := Except.ok.inj h1
    obtain rfl := List.mem_singleton.1 h2
    have hno : ∀ {c : DC Nat}, SeriesIn c false (ch! "C") (ch! "x.value") → ¬ ∃ g ∈ c.files, Holds g (ch! "C") ∧ Several g false (ch! "C") (ch! "x.value") := by
      rintro c hs ⟨g, hg, hh, hsv⟩
      exact onePerTrain_notSeveral (hs g hg hh).valid.indexed ((hs g hg hh).single rfl) hsv
    refine ⟨s1, s2, fun hx => absurd hx (hno s1), fun hx => absurd hx (hno s2), ?_⟩
    rintro ⟨t, -, g, hg, hh, hlt⟩
    exact absurd ⟨g, hg, hh, t, hlt⟩ (hno s1)

end KD

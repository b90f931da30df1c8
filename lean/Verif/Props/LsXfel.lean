/-
C93 What `lsxfel` counts in a run; C94 what it recognises, and its exit code.
-/
import Verif.Spec.LsXfel
import Verif.Props.Names
import Verif.Lemmas.Basic

set_option linter.unusedSimpArgs false

namespace KD

/-! ### Names of segments -/

theorem prefix_iff (s p : Str) : startsWith s p = true ↔ ∃ t, s = p ++ t := by
  unfold startsWith
  rw [List.isPrefixOf_iff_prefix]
  exact ⟨fun ⟨t, h⟩ => ⟨t, h.symm⟩, fun ⟨t, h⟩ => ⟨t, h.symm⟩⟩

theorem suffix_iff (s p : Str) : endsWith s p = true ↔ ∃ t, s = t ++ p := by
  unfold endsWith
  rw [List.isSuffixOf_iff_suffix]
  exact ⟨fun ⟨t, h⟩ => ⟨t, h.symm⟩, fun ⟨t, h⟩ => ⟨t, h.symm⟩⟩

theorem segmentEnd_iff (s : Str) :
    isSegmentEnd s = true ↔ ∃ ds rest, ds ≠ [] ∧ (∀ c ∈ ds, c.isDigit) ∧ s = ch! "-S" ++ ds ++ ch! ".h5" ++ rest := by
  unfold isSegmentEnd
  simp only [Bool.and_eq_true, decide_eq_true_eq, prefix_iff]
  constructor
  · rintro ⟨⟨⟨t, rfl⟩, h2⟩, u, h3⟩
    refine ⟨_, u, h2, fun c hc => takeWhile_mem hc, ?_⟩
    have := List.takeWhile_append_dropWhile (p := Char.isDigit) (l := ((ch! "-S" ++ t).drop 2))
    rw [h3] at this
    rw [List.append_assoc, List.append_assoc, this]
    rfl
  · rintro ⟨ds, rest, hne, hd, rfl⟩
    have e : (ch! "-S" ++ ds ++ ch! ".h5" ++ rest).drop 2 = ds ++ (ch! ".h5" ++ rest) := by simp
    obtain ⟨t1, t2⟩ := takeWhile_append_stop (p := Char.isDigit) (a := ds) (b := ch! ".h5" ++ rest) hd (by simp)
    rw [e, t1, t2]
    exact ⟨⟨⟨ds ++ (ch! ".h5" ++ rest), by simp⟩, hne⟩, rest, rfl⟩

theorem seg_iff (f g : Str) : Spec.Seg f g ↔ g ≠ [] ∧ '\n' ∉ g ∧ g = f.take g.length ∧ isSegmentEnd (f.drop g.length) = true := by
  unfold Spec.Seg
  rw [segmentEnd_iff]
  constructor
  · rintro ⟨h1, h2, ds, rest, h3, h4, rfl⟩
    refine ⟨h1, h2, ?_, ds, rest, h3, h4, ?_⟩
    · simp
    · simp
  · rintro ⟨h1, h2, h3, ds, rest, h4, h5, h6⟩
    refine ⟨h1, h2, ds, rest, h4, h5, ?_⟩
    have := List.take_append_drop g.length f
    rw [h6, ← h3] at this
    rw [← this]
    simp

theorem groupAt_spec (f : Str) : ∀ k ≤ f.length,
    (∀ g, segmentGroupAt f k = some g → Spec.Seg f g ∧ g.length ≤ k ∧ ∀ g', Spec.Seg f g' → g'.length ≤ k → g'.length ≤ g.length) ∧
    (segmentGroupAt f k = none → ∀ g', Spec.Seg f g' → ¬ g'.length ≤ k) := by
  intro k
  induction k with
  | zero =>
    intro _
    refine ⟨fun g h => by simp [segmentGroupAt] at h, fun _ g' hg hl => ?_⟩
    exact hg.1 (List.length_eq_zero_iff.1 (by omega))
  | succ k ih =>
    intro hk
    obtain ⟨i1, i2⟩ := ih (by omega)
    have hlen : (f.take (k + 1)).length = k + 1 := by simp; omega
    simp only [segmentGroupAt]
    by_cases h : isSegmentEnd (f.drop (k + 1)) = true ∧ '\n' ∉ f.take (k + 1)
    · rw [if_pos h]
      refine ⟨fun g hg => ?_, fun hg => by simp at hg⟩
      obtain rfl := Option.some.inj hg
      refine ⟨?_, by omega, fun g' _ hl => by omega⟩
      rw [seg_iff, hlen]
      refine ⟨?_, h.2, rfl, h.1⟩
      intro e
      rw [e] at hlen
      simp at hlen
    · rw [if_neg h]
      have no : ∀ g', Spec.Seg f g' → g'.length ≠ k + 1 := by
        intro g' hg' e
        rw [seg_iff, e] at hg'
        apply h
        rw [← hg'.2.2.1]
        exact ⟨hg'.2.2.2, hg'.2.1⟩
      refine ⟨fun g hg => ?_, fun hg g' hg' hl => ?_⟩
      · obtain ⟨j1, j2, j3⟩ := i1 g hg
        refine ⟨j1, by omega, fun g' hg' hl => j3 g' hg' ?_⟩
        have := no g' hg'
        omega
      · have := no g' hg'
        exact i2 hg g' hg' (by omega)

theorem seg_len {f g : Str} (h : Spec.Seg f g) : g.length ≤ f.length := by
  obtain ⟨-, -, ds, rest, -, -, rfl⟩ := h
  simp

theorem seg_prefix {f g g' : Str} (h : Spec.Seg f g) (h' : Spec.Seg f g') (hl : g.length = g'.length) : g = g' := by
  rw [seg_iff] at h h'
  rw [h.2.2.1, hl, ← h'.2.2.1]

/-- The sequence of a file, for names without slashes. -/
theorem segmentGroup_iff {f : Str} (hf : '/' ∉ f) (g : Str) : segmentGroup f = some g ↔ Spec.SegOf f g := by
  have hb : osBasename f = f := basename_of hf (Or.inl rfl)
  unfold segmentGroup
  rw [hb]
  obtain ⟨s1, s2⟩ := groupAt_spec f f.length (le_refl _)
  constructor
  · intro h
    obtain ⟨h1, -, h3⟩ := s1 g h
    exact ⟨h1, fun g' hg' => h3 g' hg' (seg_len hg')⟩
  · rintro ⟨h1, h2⟩
    cases hs : segmentGroupAt f f.length with
    | none => exact absurd (seg_len h1) (s2 hs g h1)
    | some g' =>
      obtain ⟨j1, -, j3⟩ := s1 g' hs
      rw [seg_prefix j1 h1 (le_antisymm (h2 g' j1) (j3 g h1 (seg_len h1)))]

theorem segmentGroup_none {f : Str} (hf : '/' ∉ f) : segmentGroup f = none ↔ ¬ Spec.IsSegment f := by
  have hb : osBasename f = f := basename_of hf (Or.inl rfl)
  constructor
  · rintro h ⟨g, hg⟩
    unfold segmentGroup at h
    rw [hb] at h
    exact (groupAt_spec f f.length (le_refl _)).2 h g hg (seg_len hg)
  · intro h
    cases hs : segmentGroup f with
    | none => rfl
    | some g => exact absurd ⟨g, ((segmentGroup_iff hf g).1 hs).1⟩ h

/-! ### C93 -/

theorem info_detector (f : Str) {info : NameInfo} (h : filenameInfo f = .ok info) : info.isDetector = true ↔ Spec.IsDetFile f := by
  have hn : ∃ rawcorr run src seg, Spec.HasName f rawcorr run src seg := by
    by_contra hc
    rw [← filename_fails, h] at hc
    simp at hc
  constructor
  · intro hd
    obtain ⟨rawcorr, run, src, seg, hn⟩ := hn
    by_cases hs : ∃ det n, Spec.IsSrc src det n ∧ (det = ch! "AGIPD" ∨ det = ch! "DSSC" ∨ det = ch! "LPD")
    · obtain ⟨det, n, hs, hdet⟩ := hs
      exact ⟨rawcorr, run, src, seg, det, n, hn, hs, hdet⟩
    · obtain ⟨i, hi, hf, -⟩ := filename_other hn (by
        intro det n hs'
        refine ⟨?_, ?_, ?_⟩ <;> rintro rfl <;> exact hs ⟨_, n, hs', by simp⟩)
      rw [h] at hi
      obtain rfl := Except.ok.inj hi
      rw [hd] at hf
      simp at hf
  · rintro ⟨rawcorr, run, src, seg, det, n, hn, hs, hd⟩
    obtain ⟨i, hi, hf, -⟩ := filename_detector hn hs hd
    rw [h] at hi
    obtain rfl := Except.ok.inj hi
    exact hf

theorem filenameInfo_error {f : Str} {e : PyErr} (he : filenameInfo f = .error e) : e = .assertion := by
  unfold filenameInfo at he
  simp only at he
  split at he
  · split at he
    · split at he
      · simp at he
      · split at he <;> simp at he
    · simp at he
  · exact (Except.error.inj he).symm

/-- The state after the loop over the files. -/
theorem segment_fold : ∀ (l : List Str) (st st' : Segments), foldE segmentStep st l = .ok st' → st.groups.keys.Nodup →
    st'.groups.keys.Nodup ∧
    (∀ g, (st'.groups.get? g).getD [] = (st.groups.get? g).getD [] ++ l.filter (fun f => segmentGroup f = some g)) ∧
    (∀ g, g ∈ st'.groups.keys ↔ g ∈ st.groups.keys ∨ ∃ f ∈ l, segmentGroup f = some g) ∧
    (∀ f ∈ l, segmentGroup f ≠ none → ∃ info, filenameInfo f = .ok info) ∧
    ∃ ds os sk, l.Perm (ds ++ os ++ sk) ∧ st'.nDetector = st.nDetector + ds.length ∧ st'.nOther = st.nOther + os.length ∧
      (∀ f ∈ ds, segmentGroup f ≠ none ∧ Spec.IsDetFile f) ∧ (∀ f ∈ os, segmentGroup f ≠ none ∧ ¬ Spec.IsDetFile f) ∧
      ∀ f ∈ sk, segmentGroup f = none := by
  intro l
  induction l with
  | nil =>
    intro st st' h hk
    obtain rfl := Except.ok.inj h
    exact ⟨hk, fun g => by simp, fun g => by simp, by simp, [], [], [], by simp, rfl, rfl, by simp, by simp, by simp⟩
  | cons f l ih =>
    intro st st' h hk
    simp only [foldE] at h
    cases hstep : segmentStep st f with
    | error e => rw [hstep] at h; simp at h
    | ok s1 =>
      rw [hstep] at h
      simp only at h
      unfold segmentStep at hstep
      cases hg : segmentGroup f with
      | none =>
        rw [hg] at hstep
        obtain rfl := Except.ok.inj hstep
        obtain ⟨i1, i2, i3, i4, ds, os, sk, p1, p2, p3, p4, p5, p6⟩ := ih _ _ h hk
        refine ⟨i1, fun g => ?_, fun g => ?_, fun x hx hxg => ?_, ds, os, f :: sk, ?_, p2, p3, p4, p5, ?_⟩
        · rw [i2 g, List.filter_cons_of_neg (by simp [hg])]
        · rw [i3 g]
          simp [hg]
        · rcases List.mem_cons.1 hx with rfl | hx
          · exact absurd hg hxg
          · exact i4 x hx hxg
        · exact (List.Perm.cons f p1).trans List.perm_middle.symm
        · intro x hx
          rcases List.mem_cons.1 hx with rfl | hx
          · exact hg
          · exact p6 x hx
      | some g0 =>
        rw [hg] at hstep
        simp only at hstep
        cases hi : filenameInfo f with
        | error e => rw [hi] at hstep; simp at hstep
        | ok info =>
          rw [hi] at hstep
          simp only at hstep
          obtain rfl := Except.ok.inj hstep
          have hgr : (if info.isDetector = true then
              ({ st with groups := st.groups.set g0 (((st.groups.get? g0).getD []) ++ [f]), nDetector := st.nDetector + 1 } : Segments)
              else { st with groups := st.groups.set g0 (((st.groups.get? g0).getD []) ++ [f]), nOther := st.nOther + 1 }).groups =
              st.groups.set g0 (((st.groups.get? g0).getD []) ++ [f]) := by split <;> rfl
          obtain ⟨i1, i2, i3, i4, ds, os, sk, p1, p2, p3, p4, p5, p6⟩ := ih _ _ h (by rw [hgr]; exact Dict.nodup_set hk _ _)
          rw [hgr] at i2 i3
          refine ⟨i1, fun g => ?_, fun g => ?_, fun x hx hxg => ?_, ?_⟩
          · rw [i2 g, Dict.get?_set]
            by_cases e : g = g0
            · subst e
              rw [List.filter_cons_of_pos (by simp [hg])]
              simp
            · rw [List.filter_cons_of_neg (by simp [hg]; exact Ne.symm e)]
              simp [e, Ne.symm e]
          · rw [i3 g, Dict.mem_keys, Dict.get?_set, Dict.mem_keys]
            by_cases e : g = g0
            · subst e
              simp [hg]
            · simp [e, Ne.symm e, hg]
          · rcases List.mem_cons.1 hx with rfl | hx
            · exact ⟨info, hi⟩
            · exact i4 x hx hxg
          · have hdet := info_detector f hi
            by_cases hd : info.isDetector = true
            · rw [if_pos hd] at p2 p3
              refine ⟨f :: ds, os, sk, by simpa using List.Perm.cons f p1, ?_, p3, ?_, p5, p6⟩
              · rw [p2, List.length_cons]
                simp only
                omega
              · intro x hx
                rcases List.mem_cons.1 hx with rfl | hx
                · exact ⟨by simp [hg], hdet.1 hd⟩
                · exact p4 x hx
            · rw [if_neg hd] at p2 p3
              refine ⟨ds, f :: os, sk, ?_, p2, ?_, p4, ?_, p6⟩
              · refine (List.Perm.cons f p1).trans ?_
                rw [List.append_assoc, List.append_assoc]
                exact List.perm_middle.symm
              · rw [p3, List.length_cons]
                simp only
                omega
              · intro x hx
                rcases List.mem_cons.1 hx with rfl | hx
                · exact ⟨by simp [hg], fun hc => hd (hdet.2 hc)⟩
                · exact p5 x hx

theorem sortStrs_perm (l : List Str) : (sortStrs l).Perm l := List.perm_insertionSort _ _

theorem shortest_spec {l : List (List Str)} (hl : l ≠ []) : shortestGroup l ∈ l ∧ ∀ x ∈ l, (shortestGroup l).length ≤ x.length := by
  unfold shortestGroup
  have hp := List.perm_insertionSort (fun a b : List Str => a.length ≤ b.length) l
  have hsorted : (l.insertionSort (fun a b => a.length ≤ b.length)).Pairwise (fun a b => a.length ≤ b.length) := by
    have : Std.Total (fun a b : List Str => a.length ≤ b.length) := ⟨fun a b => Nat.le_total _ _⟩
    have : IsTrans (List Str) (fun a b : List Str => a.length ≤ b.length) := ⟨fun a b c => Nat.le_trans⟩
    exact List.pairwise_insertionSort _ _
  cases hs : l.insertionSort (fun a b => a.length ≤ b.length) with
  | nil =>
    rw [hs] at hp
    exact absurd hp.symm.eq_nil hl
  | cons a r =>
    rw [hs] at hp hsorted
    refine ⟨hp.mem_iff.1 (by simp), fun x hx => ?_⟩
    rcases List.mem_cons.1 (hp.mem_iff.2 hx) with rfl | hx
    · exact le_refl _
    · exact (List.pairwise_cons.1 hsorted).1 x hx

/-- C93: the counts of files: every name in the folder is counted once as a detector file or another file, or is no segment. -/
theorem count_files {fs : LsFs} {path : Str} {names : List Str} {t d o : Nat} (hdir : fs.node path = some (.dir names))
    (hnames : ∀ f ∈ names, '/' ∉ f) (h : countRun fs path = .ok (t, d, o)) :
    ∃ ds os sk, names.Perm (ds ++ os ++ sk) ∧ d = ds.length ∧ o = os.length ∧ (∀ f ∈ ds, Spec.IsSegment f ∧ Spec.IsDetFile f) ∧
      (∀ f ∈ os, Spec.IsSegment f ∧ ¬ Spec.IsDetFile f) ∧ ∀ f ∈ sk, ¬ Spec.IsSegment f := by
  unfold countRun at h
  rw [hdir] at h
  simp only at h
  cases hf : foldE segmentStep ⟨[], 0, 0⟩ (sortStrs names) with
  | error e => rw [hf] at h; simp at h
  | ok st =>
    rw [hf] at h
    simp only at h
    obtain ⟨-, -, -, -, ds, os, sk, p1, p2, p3, p4, p5, p6⟩ := segment_fold _ _ _ hf List.nodup_nil
    have hperm := (sortStrs_perm names).symm.trans p1
    have hmem : ∀ f ∈ ds ++ os ++ sk, '/' ∉ f := fun f hf => hnames f (hperm.mem_iff.2 hf)
    have hseg : ∀ f ∈ ds ++ os ++ sk, segmentGroup f ≠ none → Spec.IsSegment f := by
      intro f hf hne
      by_contra hc
      exact hne ((segmentGroup_none (hmem f hf)).2 hc)
    refine ⟨ds, os, sk, hperm, ?_, ?_, fun f hf => ⟨hseg f (by simp [hf]) (p4 f hf).1, (p4 f hf).2⟩,
      fun f hf => ⟨hseg f (by simp [hf]) (p5 f hf).1, (p5 f hf).2⟩, fun f hf => (segmentGroup_none (hmem f (by simp [hf]))).1 (p6 f hf)⟩
    all_goals
      by_cases hl : st.groups.length < 1
      · rw [if_pos hl] at h; simp at h
      · rw [if_neg hl] at h
        cases hm : mapE (fileTrains fs path) (shortestGroup (st.groups.map Prod.snd)) with
        | error e => rw [hm] at h; simp at h
        | ok ts =>
          rw [hm] at h
          have e := Except.ok.inj h
          simp only [Prod.mk.injEq] at e
          first
          | exact e.2.1.symm.trans (by rw [p2]; simp)
          | exact e.2.2.symm.trans (by rw [p3]; simp)

/-- C93: the number of trains is the number of trains in the files of one sequence, which has the fewest files. -/
theorem count_trains {fs : LsFs} {path : Str} {names : List Str} {t d o : Nat} (hdir : fs.node path = some (.dir names))
    (hnames : ∀ f ∈ names, '/' ∉ f) (hnodup : names.Nodup) (h : countRun fs path = .ok (t, d, o)) :
    ∃ (g : Str) (files : List Str) (ts : List Nat), files.Nodup ∧ (∀ f, f ∈ files ↔ f ∈ names ∧ Spec.SegOf f g) ∧ files ≠ [] ∧
      ts.Nodup ∧ ts.length = t ∧
      (∀ f ∈ files, ∃ x, fs.h5file (osJoin path f) = .ok x) ∧
      (∀ n, n ∈ ts ↔ ∃ f ∈ files, Spec.HasTrain fs path f n) ∧
      ∀ (g' : Str) (files' : List Str), files'.Nodup → (∀ f, f ∈ files' ↔ f ∈ names ∧ Spec.SegOf f g') → files' ≠ [] →
        files.length ≤ files'.length := by
  unfold countRun at h
  rw [hdir] at h
  simp only at h
  cases hf : foldE segmentStep ⟨[], 0, 0⟩ (sortStrs names) with
  | error e => rw [hf] at h; simp at h
  | ok st =>
    rw [hf] at h
    simp only at h
    obtain ⟨i1, i2, i3, -⟩ := segment_fold _ _ _ hf List.nodup_nil
    by_cases hl : st.groups.length < 1
    · rw [if_pos hl] at h; simp at h
    · rw [if_neg hl] at h
      cases hm : mapE (fileTrains fs path) (shortestGroup (st.groups.map Prod.snd)) with
      | error e => rw [hm] at h; simp at h
      | ok ts =>
        rw [hm] at h
        have e := Except.ok.inj h
        simp only [Prod.mk.injEq] at e
        obtain ⟨s1, s2⟩ := shortest_spec (l := st.groups.map Prod.snd) (by
          intro hc
          apply hl
          rw [List.map_eq_nil_iff] at hc
          simp [hc])
        rw [List.mem_map] at s1
        obtain ⟨⟨g, files⟩, hgf, hfe⟩ := s1
        simp only at hfe
        have hget : st.groups.get? g = some files := (Dict.get?_eq_some_iff i1).2 hgf
        have hfiles : files = (sortStrs names).filter (fun f => segmentGroup f = some g) := by
          have := i2 g
          rw [hget] at this
          simpa using this
        have hmem : ∀ f, f ∈ sortStrs names ↔ f ∈ names := fun f => (sortStrs_perm names).mem_iff
        have hall : ∀ f, f ∈ files ↔ f ∈ names ∧ Spec.SegOf f g := by
          intro f
          rw [hfiles, List.mem_filter, hmem]
          constructor
          · rintro ⟨a, b⟩
            exact ⟨a, (segmentGroup_iff (hnames f a) g).1 (by simpa using b)⟩
          · rintro ⟨a, b⟩
            exact ⟨a, by simpa using (segmentGroup_iff (hnames f a) g).2 b⟩
        have htr : ∀ f ∈ files, ∃ x, fs.h5file (osJoin path f) = .ok x := by
          intro f hf'
          rw [← hfe] at hm
          obtain ⟨b, -, hb⟩ := mapE_ok_all hm hf'
          unfold fileTrains at hb
          cases hx : fs.h5file (osJoin path f) with
          | error e => rw [hx] at hb; simp at hb
          | ok x => exact ⟨x, rfl⟩
        refine ⟨g, files, ts.flatten.dedup, by rw [hfiles]; exact ((sortStrs_perm names).nodup_iff.2 hnodup).filter _, hall, ?_, List.nodup_dedup _, e.1, htr, ?_, ?_⟩
        · have : g ∈ st.groups.keys := by
            rw [Dict.mem_keys, hget]
            rfl
          rw [i3 g] at this
          rcases this with h0 | ⟨f, hf1, hf2⟩
          · simp [Dict.keys] at h0
          · intro hc
            have : f ∈ files := by rw [hfiles, List.mem_filter]; exact ⟨hf1, by simpa using hf2⟩
            rw [hc] at this
            simp at this
        · intro n
          rw [List.mem_dedup, List.mem_flatten]
          constructor
          · rintro ⟨b, hb, hn⟩
            obtain ⟨f, hf1, hf2⟩ := (mapE_mem hm).1 hb
            rw [← hfe] at hf1
            unfold fileTrains at hf2
            cases hx : fs.h5file (osJoin path f) with
            | error e => rw [hx] at hf2; simp at hf2
            | ok x =>
              rw [hx] at hf2
              obtain rfl := Except.ok.inj hf2
              exact ⟨f, hf1, x, hx, hn⟩
          · rintro ⟨f, hf1, x, hx, hn⟩
            rw [← hfe] at hm
            refine ⟨x.trainIds, (mapE_mem hm).2 ⟨f, hf1, ?_⟩, hn⟩
            simp [fileTrains, hx]
        · intro g' files' hnd' hall' hne'
          obtain ⟨f, hf0⟩ := List.exists_mem_of_ne_nil _ hne'
          obtain ⟨hf1, hf2⟩ := (hall' f).1 hf0
          have hk : g' ∈ st.groups.keys := (i3 g').2 (Or.inr ⟨f, (hmem f).2 hf1, (segmentGroup_iff (hnames f hf1) g').2 hf2⟩)
          rw [Dict.mem_keys_iff] at hk
          obtain ⟨v, hv⟩ := hk
          have hv2 : v = (sortStrs names).filter (fun f => segmentGroup f = some g') := by
            have := i2 g'
            rw [hv] at this
            simpa using this
          have := s2 v (List.mem_map.2 ⟨(g', v), Dict.mem_of_get? hv, rfl⟩)
          rw [← hfe, hv2] at this
          have hpp : files'.Perm ((sortStrs names).filter (fun f => segmentGroup f = some g')) := by
            rw [List.perm_ext_iff_of_nodup hnd' (((sortStrs_perm names).nodup_iff.2 hnodup).filter _)]
            intro x
            rw [hall', List.mem_filter, hmem]
            constructor
            · rintro ⟨a, b⟩
              exact ⟨a, by simpa using (segmentGroup_iff (hnames x a) g').2 b⟩
            · rintro ⟨a, b⟩
              exact ⟨a, (segmentGroup_iff (hnames x a) g').1 (by simpa using b)⟩
          rw [hpp.length_eq]
          exact this

/-- C93: when all the sequences of files have the same trains, the number is the number of trains of the run. -/
theorem count_trains_same_partial {fs : LsFs} {path : Str} {names : List Str} {t d o : Nat} (hdir : fs.node path = some (.dir names))
    (hnames : ∀ f ∈ names, '/' ∉ f) (hnodup : names.Nodup) (h : countRun fs path = .ok (t, d, o)) (trains : List Nat) (hnd : trains.Nodup)
    (hsame : ∀ g, (∃ f ∈ names, Spec.SegOf f g) → ∀ n, n ∈ trains ↔ ∃ f ∈ names, Spec.SegOf f g ∧ Spec.HasTrain fs path f n) :
    t = trains.length := by
  obtain ⟨g, files, ts, -, h1, h2, h3, h4, -, h6, -⟩ := count_trains hdir hnames hnodup h
  obtain ⟨f, hf⟩ := List.exists_mem_of_ne_nil _ h2
  have hf' := (h1 f).1 hf
  rw [← h4]
  apply List.Perm.length_eq
  rw [List.perm_ext_iff_of_nodup h3 hnd]
  intro n
  rw [h6, hsame g ⟨f, hf'⟩ n]
  constructor
  · rintro ⟨f, a, b⟩
    exact ⟨f, ((h1 f).1 a).1, ((h1 f).1 a).2, b⟩
  · rintro ⟨f, a, b, c⟩
    exact ⟨f, (h1 f).2 ⟨a, b⟩, c⟩

theorem segment_fold_ok : ∀ (l : List Str) (st : Segments), (∀ f ∈ l, segmentGroup f ≠ none → ∃ info, filenameInfo f = .ok info) →
    ∃ st', foldE segmentStep st l = .ok st' := by
  intro l
  induction l with
  | nil => exact fun st _ => ⟨st, rfl⟩
  | cons f l ih =>
    intro st h
    have hs : ∃ s1, segmentStep st f = .ok s1 := by
      unfold segmentStep
      cases hg : segmentGroup f with
      | none => exact ⟨_, rfl⟩
      | some g =>
        obtain ⟨info, hi⟩ := h f (by simp) (by simp [hg])
        simp only [hi]
        exact ⟨_, rfl⟩
    obtain ⟨s1, hs1⟩ := hs
    obtain ⟨s2, hs2⟩ := ih s1 (fun x hx => h x (List.mem_cons_of_mem _ hx))
    exact ⟨s2, by simp only [foldE, hs1, hs2]⟩

theorem segment_fold_error : ∀ (l : List Str) (st : Segments) (e : PyErr), foldE segmentStep st l = .error e → e = .assertion := by
  intro l
  induction l with
  | nil => intro st e h; simp [foldE] at h
  | cons f l ih =>
    intro st e h
    simp only [foldE] at h
    cases hs : segmentStep st f with
    | ok s1 => rw [hs] at h; exact ih _ _ h
    | error e' =>
      rw [hs] at h
      obtain rfl := Except.error.inj h
      unfold segmentStep at hs
      split at hs
      · simp at hs
      · simp only at hs
        split at hs
        · next e'' he =>
          obtain rfl := Except.error.inj hs
          exact filenameInfo_error he
        · simp at hs

/-- C93: a folder with segments whose names have four parts, all of which can be opened, is summarised; without segments: ValueError; with
a segment whose name has not four parts: AssertionError. -/
theorem count_outcome {fs : LsFs} {path : Str} {names : List Str} (hdir : fs.node path = some (.dir names)) (hnames : ∀ f ∈ names, '/' ∉ f) :
    ((∀ f ∈ names, Spec.IsSegment f → Spec.Named f ∧ ∃ x, fs.h5file (osJoin path f) = .ok x) → (∃ f ∈ names, Spec.IsSegment f) →
      ∃ r, countRun fs path = .ok r) ∧
    ((∀ f ∈ names, ¬ Spec.IsSegment f) → countRun fs path = .error .value) ∧
    ((∃ f ∈ names, Spec.IsSegment f ∧ ¬ Spec.Named f) → countRun fs path = .error .assertion) := by
  have hmem : ∀ f, f ∈ sortStrs names ↔ f ∈ names := fun f => (sortStrs_perm names).mem_iff
  have hseg : ∀ f ∈ sortStrs names, segmentGroup f ≠ none → Spec.IsSegment f := by
    intro f hf hne
    by_contra hc
    exact hne ((segmentGroup_none (hnames f ((hmem f).1 hf))).2 hc)
  have hnamed : ∀ f, Spec.Named f → ∃ info, filenameInfo f = .ok info := by
    intro f hn
    cases hi : filenameInfo f with
    | ok info => exact ⟨info, rfl⟩
    | error e =>
      rw [filenameInfo_error hi, filename_fails] at hi
      exact absurd hn hi
  unfold countRun
  rw [hdir]
  simp only
  refine ⟨fun hall hex => ?_, fun hno => ?_, ?_⟩
  · obtain ⟨st, hst⟩ := segment_fold_ok (sortStrs names) ⟨[], 0, 0⟩ (fun f hf hne => hnamed f (hall f ((hmem f).1 hf) (hseg f hf hne)).1)
    obtain ⟨i1, i2, i3, -⟩ := segment_fold _ _ _ hst List.nodup_nil
    rw [hst]
    simp only
    obtain ⟨f, hf, hfs⟩ := hex
    have hg : ∃ g, segmentGroup f = some g := by
      cases hg : segmentGroup f with
      | some g => exact ⟨g, rfl⟩
      | none => exact absurd hfs ((segmentGroup_none (hnames f hf)).1 hg)
    obtain ⟨g, hg⟩ := hg
    have hk := (i3 g).2 (Or.inr ⟨f, (hmem f).2 hf, hg⟩)
    have hne : st.groups ≠ [] := by
      intro hc
      rw [hc] at hk
      simp [Dict.keys] at hk
    have hl : ¬ st.groups.length < 1 := by
      have := List.length_pos_iff.2 hne
      omega
    rw [if_neg hl]
    obtain ⟨s1, -⟩ := shortest_spec (l := st.groups.map Prod.snd) (by simpa using hne)
    rw [List.mem_map] at s1
    obtain ⟨⟨g', files⟩, hgf, hfe⟩ := s1
    simp only at hfe
    have hfiles : files = (sortStrs names).filter (fun f => segmentGroup f = some g') := by
      have := i2 g'
      rw [(Dict.get?_eq_some_iff i1).2 hgf] at this
      simpa using this
    obtain ⟨ts, hts⟩ := mapE_exists_ok (f := fileTrains fs path) (l := files) (by
      intro x hx
      rw [hfiles, List.mem_filter] at hx
      obtain ⟨y, hy⟩ := (hall x ((hmem x).1 hx.1) (hseg x hx.1 (by have := hx.2; simp at this; simp [this]))).2
      exact ⟨y.trainIds, by simp [fileTrains, hy]⟩)
    rw [← hfe, hts]
    exact ⟨_, rfl⟩
  · obtain ⟨st, hst⟩ := segment_fold_ok (sortStrs names) ⟨[], 0, 0⟩ (fun f hf hne => absurd (hseg f hf hne) (hno f ((hmem f).1 hf)))
    obtain ⟨i1, i2, i3, -⟩ := segment_fold _ _ _ hst List.nodup_nil
    rw [hst]
    simp only
    rw [if_pos]
    by_contra hc
    have hne : st.groups ≠ [] := by
      intro e
      rw [e] at hc
      simp at hc
    obtain ⟨⟨g, v⟩, hgv⟩ := List.exists_mem_of_ne_nil _ hne
    have : g ∈ st.groups.keys := List.mem_map.2 ⟨(g, v), hgv, rfl⟩
    rw [i3 g] at this
    rcases this with h | ⟨f, hf, hg⟩
    · simp [Dict.keys] at h
    · exact hno f ((hmem f).1 hf) (hseg f hf (by simp [hg]))
  · rintro ⟨f, hf, hfs, hfn⟩
    cases hst : foldE segmentStep ⟨[], 0, 0⟩ (sortStrs names) with
    | error e => rw [segment_fold_error _ _ _ hst]
    | ok st =>
      obtain ⟨-, -, -, i4, -⟩ := segment_fold _ _ _ hst List.nodup_nil
      obtain ⟨info, hi⟩ := i4 f ((hmem f).2 hf) (fun hc => (segmentGroup_none (hnames f hf)).1 hc hfs)
      have := (filename_fails f).2 hfn
      rw [hi] at this
      simp at this

/-- C93: the order in which the file system lists the names does not matter. -/
theorem count_order {fs fs' : LsFs} {path : Str} {names names' : List Str} (hdir : fs.node path = some (.dir names))
    (hdir' : fs'.node path = some (.dir names')) (hp : names.Perm names') (hopen : fs'.h5file = fs.h5file) : countRun fs path = countRun fs' path := by
  have hs : sortStrs names = sortStrs names' := by
    unfold sortStrs
    have : IsTrans Str (fun a b => a ≤ b) := ⟨fun a b c h1 h2 => List.le_trans h1 h2⟩
    have : Std.Total (fun a b : Str => a ≤ b) := ⟨fun a b => List.le_total _ _⟩
    exact List.Perm.eq_of_pairwise (le := (· ≤ ·)) (fun a b _ _ h1 h2 => List.le_antisymm h1 h2) (List.pairwise_insertionSort _ _)
      (List.pairwise_insertionSort _ _) (((List.perm_insertionSort _ _).trans hp).trans (List.perm_insertionSort _ _).symm)
  have ht : fileTrains fs' path = fileTrains fs path := by
    funext f
    simp only [fileTrains, hopen]
  unfold countRun
  rw [hdir, hdir', ht]
  simp only [hs]

/-- C93 is false when the sequences have different trains: the number is that of the sequence with the fewest files, even if another one
has more trains. -/
def Spec.unevenRun : LsFs where
  node p := if p = ch! "/r" then some (.dir [ch! "RAW-R0001-DA01-S00000.h5", ch! "RAW-R0001-LPD00-S00000.h5", ch! "RAW-R0001-LPD00-S00001.h5"]) else none
  abspath p := p
  cwd := ch! "/r"
  h5file p := .ok ⟨if p = ch! "/r/RAW-R0001-DA01-S00000.h5" then [1] else if p = ch! "/r/RAW-R0001-LPD00-S00000.h5" then [1, 2] else [3],
    [], [], [], fun _ => .error .key⟩
  runInfo _ := .ok ()

theorem count_trains_wrong : ∃ f n, countRun Spec.unevenRun ch! "/r" = .ok (1, 2, 1) ∧ n ≠ 1 ∧ Spec.HasTrain Spec.unevenRun ch! "/r" f n :=
  ⟨ch! "RAW-R0001-LPD00-S00001.h5", 3, by decide, by decide, _, rfl, by decide⟩

example : Spec.SegOf ch! "RAW-R0001-DA01-S00000.h5" ch! "RAW-R0001-DA01" := by
  rw [← segmentGroup_iff (by decide)]
  decide

/-- The hypotheses of C93's theorems are met by this folder. -/
example : ∀ f ∈ [ch! "RAW-R0001-DA01-S00000.h5", ch! "RAW-R0001-LPD00-S00000.h5"],
    Spec.IsSegment f ∧ Spec.Named f ∧ ∃ x, Spec.unevenRun.h5file (osJoin ch! "/r" f) = .ok x := by
  have seg : ∀ f g : Str, '/' ∉ f → segmentGroup f = some g → Spec.IsSegment f := fun f g h1 h2 => ⟨g, ((segmentGroup_iff h1 g).1 h2).1⟩
  have nam : ∀ (f : Str) info, filenameInfo f = .ok info → Spec.Named f := by
    intro f info h
    by_contra hc
    rw [Spec.Named, ← filename_fails, h] at hc
    simp at hc
  intro f hf
  simp only [List.mem_cons, List.not_mem_nil, or_false] at hf
  rcases hf with rfl | rfl
  · exact ⟨seg _ ch! "RAW-R0001-DA01" (by decide) (by decide), nam _ _ rfl, _, rfl⟩
  · exact ⟨seg _ ch! "RAW-R0001-LPD00" (by decide) (by decide), nam _ _ rfl, _, rfl⟩

/-! ### C94 -/

theorem isRunName_iff (f : Str) : isRunName f = true ↔ Spec.RunName f := by
  unfold Spec.RunName
  constructor
  · intro h
    unfold isRunName at h
    split at h
    · exact ⟨_, _, rfl, h⟩
    · simp at h
  · rintro ⟨c, rest, rfl, h⟩
    exact h

theorem sorted_any (l : List Str) (p : Str → Bool) : (sortStrs l).any p = l.any p := by
  rw [Bool.eq_iff_iff, List.any_eq_true, List.any_eq_true]
  constructor <;> rintro ⟨x, hx, hp⟩
  · exact ⟨x, (sortStrs_perm l).mem_iff.1 hx, hp⟩
  · exact ⟨x, (sortStrs_perm l).mem_iff.2 hx, hp⟩

theorem runFolder_iff {fs : LsFs} {path : Str} {names : List Str} (h : fs.node path = some (.dir names)) :
    names.any (fun f => endsWith f ch! ".h5") = true ↔ Spec.RunFolder fs path := by
  rw [List.any_eq_true]
  constructor
  · rintro ⟨f, hf, he⟩
    exact ⟨names, h, f, hf, (suffix_iff _ _).1 he⟩
  · rintro ⟨names', h', f, hf, he⟩
    rw [h] at h'
    obtain rfl := LsNode.dir.inj (Option.some.inj h')
    exact ⟨f, hf, (suffix_iff _ _).2 he⟩

theorem runsFolder_iff {fs : LsFs} {path : Str} {names : List Str} (h : fs.node path = some (.dir names)) :
    names.any isRunName = true ↔ Spec.RunsFolder fs path := by
  rw [List.any_eq_true]
  constructor
  · rintro ⟨f, hf, he⟩
    exact ⟨names, h, f, hf, (isRunName_iff _).1 he⟩
  · rintro ⟨names', h', f, hf, he⟩
    rw [h] at h'
    obtain rfl := LsNode.dir.inj (Option.some.inj h')
    exact ⟨f, hf, (isRunName_iff _).2 he⟩

theorem then_ok {α β : Type} {f : Pr α} {g : α → Pr β} {b : β} : (f.then g).2 = .ok b ↔ ∃ a, f.2 = .ok a ∧ (g a).2 = .ok b := by
  unfold Pr.then
  split
  · next h => simp [h]
  · next h => simp [h]

theorem then_out {α β : Type} {f : Pr α} {g : α → Pr β} {a : α} (h : f.2 = .ok a) : (f.then g).1 = f.1 ++ (g a).1 := by
  unfold Pr.then
  split
  · next h' => rw [h] at h'; simp at h'
  · next h' =>
    rw [h] at h'
    obtain rfl := Except.ok.inj h'
    rfl

theorem step_code {fs : LsFs} {code code' : Nat} {p : Str} (h : (lsStep fs code p).2 = .ok code') :
    (Spec.Recognised fs p → code' = code) ∧ (¬ Spec.Recognised fs p → code' = 2) := by
  unfold lsStep at h
  simp only at h
  cases hn : fs.node p with
  | none =>
    rw [hn] at h
    obtain ⟨-, -, h⟩ := then_ok.1 h
    refine ⟨fun hr => ?_, fun _ => (Except.ok.inj h).symm⟩
    rcases hr with ⟨n, h', -⟩ | ⟨n, h', -⟩ | ⟨h', -⟩ <;> rw [hn] at h' <;> simp at h'
  | some node =>
    cases node with
    | dir names =>
      rw [hn] at h
      simp only at h
      have e1 := runFolder_iff hn
      have e2 := runsFolder_iff hn
      by_cases h1 : names.any (fun f => endsWith f ch! ".h5") = true
      · rw [if_pos h1] at h
        obtain ⟨-, -, h⟩ := then_ok.1 h
        exact ⟨fun _ => (Except.ok.inj h).symm, fun hc => absurd (Or.inl (e1.1 h1)) hc⟩
      · rw [if_neg h1] at h
        by_cases h2 : names.any isRunName = true
        · rw [if_pos h2] at h
          obtain ⟨-, -, h⟩ := then_ok.1 h
          obtain ⟨-, -, h⟩ := then_ok.1 h
          exact ⟨fun _ => (Except.ok.inj h).symm, fun hc => absurd (Or.inr (Or.inl (e2.1 h2))) hc⟩
        · rw [if_neg h2] at h
          obtain ⟨-, -, h⟩ := then_ok.1 h
          refine ⟨fun hr => ?_, fun _ => (Except.ok.inj h).symm⟩
          rcases hr with hr | hr | ⟨h', -⟩
          · exact absurd (e1.2 hr) h1
          · exact absurd (e2.2 hr) h2
          · rw [hn] at h'; simp at h'
    | file =>
      rw [hn] at h
      simp only at h
      by_cases h1 : endsWith p ch! ".h5" = true
      · rw [if_pos h1] at h
        obtain ⟨-, -, h⟩ := then_ok.1 h
        exact ⟨fun _ => (Except.ok.inj h).symm, fun hc => absurd (Or.inr (Or.inr ⟨hn, (suffix_iff _ _).1 h1⟩)) hc⟩
      · rw [if_neg h1] at h
        obtain ⟨-, -, h⟩ := then_ok.1 h
        refine ⟨fun hr => ?_, fun _ => (Except.ok.inj h).symm⟩
        rcases hr with ⟨n, h', -⟩ | ⟨n, h', -⟩ | ⟨-, hs⟩
        · rw [hn] at h'; simp at h'
        · rw [hn] at h'; simp at h'
        · exact absurd ((suffix_iff _ _).2 hs) h1

theorem many_code {fs : LsFs} : ∀ (ps : List Str) (code c : Nat), (lsMany fs code ps).2 = .ok c →
    ((∀ p ∈ ps, Spec.Recognised fs p) → c = code) ∧ ((∃ p ∈ ps, ¬ Spec.Recognised fs p) → c = 2) := by
  intro ps
  induction ps with
  | nil =>
    intro code c h
    exact ⟨fun _ => (Except.ok.inj h).symm, fun ⟨_, h, _⟩ => by simp at h⟩
  | cons p ps ih =>
    intro code c h
    simp only [lsMany] at h
    obtain ⟨c1, h1, h2⟩ := then_ok.1 h
    obtain ⟨s1, s2⟩ := step_code h1
    obtain ⟨i1, i2⟩ := ih c1 c h2
    constructor
    · intro hall
      rw [i1 (fun x hx => hall x (List.mem_cons_of_mem _ hx)), s1 (hall p (by simp))]
    · rintro ⟨x, hx, hc⟩
      by_cases hps : ∃ p ∈ ps, ¬ Spec.Recognised fs p
      · exact i2 hps
      · rcases List.mem_cons.1 hx with rfl | hx
        · rw [i1 (fun y hy => by by_contra hh; exact hps ⟨y, hy, hh⟩), s2 hc]
        · exact absurd ⟨x, hx, hc⟩ hps

/-- C94: with several paths (and no exception) the exit code is 0 when all are recognised, and 2 otherwise. -/
theorem ls_many_code {fs : LsFs} {p q : Str} {ps : List Str} {c : Nat} (h : (lsMain fs (p :: q :: ps)).2 = .ok c) :
    ((∀ x ∈ p :: q :: ps, Spec.Recognised fs x) → c = 0) ∧ ((∃ x ∈ p :: q :: ps, ¬ Spec.Recognised fs x) → c = 2) := by
  have : lsMain fs (p :: q :: ps) = lsMany fs 0 (p :: q :: ps) := by simp [lsMain]
  rw [this] at h
  exact many_code _ _ _ h

/-- C94, for one path which is not a folder: the exit code is 0 for a data file and otherwise 2. Missing: folders (always 0). -/
theorem ls_one_code_partial {fs : LsFs} {p : Str} {c : Nat} (h : (lsMain fs [p]).2 = .ok c) :
    (Spec.Recognised fs p → c = 0) ∧ (¬ Spec.Recognised fs p → ¬ Spec.Folder fs p → c = 2) ∧ (Spec.Folder fs p → c = 0) := by
  have e : lsMain fs [p] = lsOne fs p := by simp [lsMain]
  rw [e] at h
  unfold lsOne at h
  simp only at h
  cases hn : fs.node p with
  | none =>
    rw [hn] at h
    obtain ⟨-, -, h⟩ := then_ok.1 h
    refine ⟨fun hr => ?_, fun _ _ => (Except.ok.inj h).symm, fun ⟨n, h'⟩ => ?_⟩
    · rcases hr with ⟨n, h', -⟩ | ⟨n, h', -⟩ | ⟨h', -⟩ <;> rw [hn] at h' <;> simp at h'
    · rw [hn] at h'; simp at h'
  | some node =>
    cases node with
    | dir names =>
      rw [hn] at h
      simp only at h
      have hc : c = 0 := by
        split at h
        · obtain ⟨-, -, h⟩ := then_ok.1 h
          exact (Except.ok.inj h).symm
        · split at h
          · obtain ⟨-, -, h⟩ := then_ok.1 h
            obtain ⟨-, -, h⟩ := then_ok.1 h
            exact (Except.ok.inj h).symm
          · split at h
            · obtain ⟨-, -, h⟩ := then_ok.1 h
              obtain ⟨-, -, h⟩ := then_ok.1 h
              obtain ⟨-, -, h⟩ := then_ok.1 h
              exact (Except.ok.inj h).symm
            · obtain ⟨-, -, h⟩ := then_ok.1 h
              exact (Except.ok.inj h).symm
      exact ⟨fun _ => hc, fun _ hd => absurd ⟨names, hn⟩ hd, fun _ => hc⟩
    | file =>
      rw [hn] at h
      simp only at h
      have hnd : ¬ Spec.Folder fs p := by
        rintro ⟨n, h'⟩
        rw [hn] at h'
        simp at h'
      by_cases h1 : endsWith p ch! ".h5" = true
      · rw [if_pos h1] at h
        obtain ⟨-, -, h⟩ := then_ok.1 h
        exact ⟨fun _ => (Except.ok.inj h).symm, fun hc => absurd (Or.inr (Or.inr ⟨hn, (suffix_iff _ _).1 h1⟩)) hc, fun hf => absurd hf hnd⟩
      · rw [if_neg h1] at h
        obtain ⟨-, -, h⟩ := then_ok.1 h
        refine ⟨fun hr => ?_, fun _ _ => (Except.ok.inj h).symm, fun hf => absurd hf hnd⟩
        rcases hr with ⟨n, h', -⟩ | ⟨n, h', -⟩ | ⟨-, hs⟩
        · rw [hn] at h'; simp at h'
        · rw [hn] at h'; simp at h'
        · exact absurd ((suffix_iff _ _).2 hs) h1

/-- C94 is false: a folder which is not recognised gives the exit code 0 alone, and 2 when there are more paths. -/
theorem ls_folder_wrong : ∃ fs p, ¬ Spec.Recognised fs p ∧ lsMain fs [p] = ([.unknownDir ch! "x"], .ok 0) ∧
    (lsMain fs [p, p]).2 = .ok 2 := by
  refine ⟨⟨fun p => if p = ch! "/x" then some (.dir []) else none, fun p => p, [], fun _ => .error .os, fun _ => .ok ()⟩, ch! "/x", ?_, by decide, by decide⟩
  rintro (⟨n, h, f, hf, -⟩ | ⟨n, h, f, hf, -⟩ | ⟨h, -⟩)
  · simp at h; subst h; simp at hf
  · simp at h; subst h; simp at hf
  · simp at h

/-- C94: without arguments, the current folder is described. -/
theorem ls_default (fs : LsFs) : lsMain fs [] = lsMain fs [fs.abspath fs.cwd] := by simp [lsMain]

/-- C94: with several paths a run is summarised with its counts, and a data file which is not of a detector raises AttributeError. -/
theorem ls_file_wrong (fs : LsFs) (code : Nat) (p : Str) (h : Spec.DataFile fs p) (hn : Spec.Named (osBasename p))
    (hd : ¬ Spec.IsDetFile (osBasename p)) (x : LsFile) (hx : fs.h5file p = .ok x) : (lsStep fs code p).2 = .error .attribute := by
  obtain ⟨h1, h2⟩ := h
  have he := (suffix_iff p ch! ".h5").2 h2
  cases hi : filenameInfo (osBasename p) with
  | error e =>
    rw [filenameInfo_error hi, filename_fails] at hi
    exact absurd hn hi
  | ok info =>
    have hdet : info.isDetector = false := by
      rw [Bool.eq_false_iff]
      exact fun hc => hd ((info_detector _ hi).1 hc)
    unfold lsStep
    simp only [h1, he, if_true]
    simp [summariseFile, Pr.then, Pr.quiet, Pr.print, hi, hx, hdet]

theorem each_ok {α : Type} {f : α → Pr Unit} : ∀ {l : List α}, (Pr.each f l).2 = .ok () → (Pr.each f l).1 = l.flatMap (fun a => (f a).1) ∧ ∀ a ∈ l, (f a).2 = .ok () := by
  intro l
  induction l with
  | nil => exact fun _ => ⟨rfl, by simp⟩
  | cons a l ih =>
    intro h
    simp only [Pr.each] at h ⊢
    obtain ⟨u, h1, h2⟩ := then_ok.1 h
    obtain ⟨i1, i2⟩ := ih h2
    rw [then_out h1, i1]
    refine ⟨by simp, fun x hx => ?_⟩
    rcases List.mem_cons.1 hx with rfl | hx
    · exact h1
    · exact i2 x hx

/-- C94: the runs in a folder are summarised one after the other: what is printed is one line for each folder with the name of a run. -/
theorem ls_runs {fs : LsFs} {path : Str} {names : List Str} (h : (summariseRuns fs path names).2 = .ok ()) :
    ∃ lines : Str → LsOut, ∃ runs : List Str, runs.Sublist names ∧ (∀ f, f ∈ runs ↔ f ∈ names ∧ Spec.RunName f ∧ Spec.Folder fs (osJoin path f)) ∧
      (summariseRuns fs path names).1 = runs.map lines ∧
      ∀ f ∈ runs, ∃ t d o, countRun fs (osJoin path f) = .ok (t, d, o) ∧ lines f = .run true (osBasename (osJoin path f)) t d o := by
  obtain ⟨h1, h2⟩ := each_ok h
  have hdir : ∀ p, fs.isDir p = true ↔ Spec.Folder fs p := by
    intro p
    unfold LsFs.isDir Spec.Folder
    cases hn : fs.node p with
    | none => simp
    | some n => cases n <;> simp
  have hsum : ∀ f ∈ names, isRunName f && fs.isDir (osJoin path f) → ∃ t d o, countRun fs (osJoin path f) = .ok (t, d, o) ∧
      (summariseRun fs true (osJoin path f)).1 = [.run true (osBasename (osJoin path f)) t d o] := by
    intro f hf hr
    have := h2 f hf
    rw [if_pos hr] at this
    unfold summariseRun at this ⊢
    obtain ⟨⟨t, d, o⟩, a, b⟩ := then_ok.1 this
    refine ⟨t, d, o, a, ?_⟩
    rw [then_out a]
    rfl
  refine ⟨fun f => match countRun fs (osJoin path f) with
    | .ok c => .run true (osBasename (osJoin path f)) c.1 c.2.1 c.2.2
    | .error _ => .notFound [], names.filter (fun f => isRunName f && fs.isDir (osJoin path f)), List.filter_sublist, fun f => ?_, ?_, ?_⟩
  · rw [List.mem_filter, Bool.and_eq_true, isRunName_iff, hdir]
  · unfold summariseRuns
    rw [h1]
    clear h h1 h2
    induction names with
    | nil => rfl
    | cons f l ih =>
      have hl := ih (fun x hx => hsum x (List.mem_cons_of_mem _ hx))
      rw [List.flatMap_cons, hl]
      by_cases hr : (isRunName f && fs.isDir (osJoin path f)) = true
      · obtain ⟨t, d, o, a, b⟩ := hsum f (by simp) hr
        rw [if_pos hr, List.filter_cons_of_pos (by exact hr), List.map_cons, b, a]
        rfl
      · rw [if_neg hr, List.filter_cons_of_neg (by exact hr)]
        rfl
  · intro f hf
    rw [List.mem_filter] at hf
    obtain ⟨t, d, o, a, -⟩ := hsum f hf.1 hf.2
    exact ⟨t, d, o, a, by simp only [a]⟩

theorem sortStrs_sorted (l : List Str) : (sortStrs l).Pairwise (· ≤ ·) := by
  have : IsTrans Str (fun a b => a ≤ b) := ⟨fun a b c h1 h2 => List.le_trans h1 h2⟩
  have : Std.Total (fun a b : Str => a ≤ b) := ⟨fun a b => List.le_total _ _⟩
  exact List.pairwise_insertionSort _ _

/-- C94: slashes at the end of a path do not count. -/
theorem rstripSlash_iff (p q : Str) : rstripSlash p = q ↔ (∃ n, p = q ++ List.replicate n '/') ∧ q.getLast? ≠ some '/' := by
  have key : ∀ l : Str, ∃ n, l = List.replicate n '/' ++ l.dropWhile (· = '/') := by
    intro l
    induction l with
    | nil => exact ⟨0, rfl⟩
    | cons c l ih =>
      by_cases hc : c = '/'
      · obtain ⟨n, hn⟩ := ih
        refine ⟨n + 1, ?_⟩
        subst hc
        rw [List.dropWhile_cons_of_pos (by simp), List.replicate_succ, List.cons_append, ← hn]
      · exact ⟨0, by rw [List.dropWhile_cons_of_neg (by simpa using hc)]; rfl⟩
  unfold rstripSlash
  constructor
  · rintro rfl
    constructor
    · obtain ⟨n, hn⟩ := key p.reverse
      refine ⟨n, ?_⟩
      have := congrArg List.reverse hn
      rwa [List.reverse_reverse, List.reverse_append, List.reverse_replicate] at this
    · intro h
      rw [List.getLast?_reverse] at h
      have := List.head?_dropWhile_not (fun c : Char => decide (c = '/')) p.reverse
      rw [h] at this
      simp at this
  · rintro ⟨⟨n, rfl⟩, h⟩
    rw [List.reverse_append, List.reverse_replicate]
    have h1 : ∀ n (l : Str), (List.replicate n '/' ++ l).dropWhile (· = '/') = l.dropWhile (· = '/') := by
      intro n l
      induction n with
      | zero => rfl
      | succ n ih => rw [List.replicate_succ, List.cons_append, List.dropWhile_cons_of_pos (by simp), ih]
    rw [h1]
    cases hq : q.reverse with
    | nil => simpa using hq.symm
    | cons c l =>
      have hc : c ≠ '/' := by
        rintro rfl
        apply h
        rw [← List.head?_reverse, hq]
        rfl
      rw [List.dropWhile_cons_of_neg (by simpa using hc), ← hq, List.reverse_reverse]

/-- The name by which a single path is called: the last part of the absolute path, without slashes at the end. -/
def Spec.Called (fs : LsFs) (p name : Str) : Prop :=
  ∃ q n, p = q ++ List.replicate n '/' ∧ q.getLast? ≠ some '/' ∧ name = osBasename (fs.abspath q)

/-- Every path has such a name. -/
theorem called_exists (fs : LsFs) (p : Str) : ∃ name, Spec.Called fs p name := by
  obtain ⟨⟨n, h1⟩, h2⟩ := (rstripSlash_iff p _).1 rfl
  exact ⟨_, _, n, h1, h2, rfl⟩

/-- C94: what is said about one path: a run is described by `RunDirectory(path).info()`; for a folder of runs, and for a folder with a folder
`raw`, the runs in it are summarised in alphabetical order; anything else is not recognised or not found. -/
theorem ls_one_kinds (fs : LsFs) (p name : Str) (hname : Spec.Called fs p name) :
    (Spec.RunFolder fs p → lsMain fs [p] = (.runDir (osBasename p) :: [], (fs.runInfo p).map (fun _ => 0))) ∧
    (∀ names, fs.node p = some (.dir names) → Spec.RunsFolder fs p → ¬ Spec.RunFolder fs p → ∃ sorted : List Str, sorted.Perm names ∧
      sorted.Pairwise (· ≤ ·) ∧
      lsMain fs [p] = (.proposalData name :: (summariseRuns fs p sorted).1, (summariseRuns fs p sorted).2.map (fun _ => 0))) ∧
    (∀ raws, Spec.Folder fs p → ¬ Spec.RunsFolder fs p → ¬ Spec.RunFolder fs p → fs.node (osJoin p ch! "raw") = some (.dir raws) →
      ∃ sorted : List Str, sorted.Perm raws ∧ sorted.Pairwise (· ≤ ·) ∧
      lsMain fs [p] = (.proposal name :: .raw name ::
        (summariseRuns fs (osJoin p ch! "raw") sorted).1, (summariseRuns fs (osJoin p ch! "raw") sorted).2.map (fun _ => 0))) ∧
    (Spec.Folder fs p → ¬ Spec.RunsFolder fs p → ¬ Spec.RunFolder fs p → ¬ Spec.Folder fs (osJoin p ch! "raw") →
      lsMain fs [p] = ([.unknownDir name], .ok 0)) ∧
    (fs.node p = some .file → ¬ Spec.DataFile fs p → lsMain fs [p] = ([.unknownFile name], .ok 2)) ∧
    (fs.node p = none → lsMain fs [p] = ([.notFound p], .ok 2)) := by
  have e : lsMain fs [p] = lsOne fs p := by simp [lsMain]
  have hcall : osBasename (fs.abspath (rstripSlash p)) = name := by
    obtain ⟨q, n, h1, h2, rfl⟩ := hname
    rw [(rstripSlash_iff p q).2 ⟨⟨n, h1⟩, h2⟩]
  have quiet : ∀ (f : Pr Unit), (f.then fun _ => Pr.quiet (.ok 0)) = (f.1, f.2.map (fun _ => 0)) := by
    rintro ⟨a, b⟩
    cases b <;> simp [Pr.then, Pr.quiet, Except.map]
  have print : ∀ {α : Type} (x : LsOut) (g : Pr α), ((Pr.print x).then fun _ => g) = (x :: g.1, g.2) := by
    intro α x g
    simp [Pr.then, Pr.print]
  rw [e]
  unfold lsOne
  simp only [sorted_any, hcall]
  refine ⟨?_, ?_, ?_, ?_, ?_, ?_⟩
  · intro h
    have h0 := h
    obtain ⟨names, hn, -⟩ := h
    rw [hn]
    simp only
    rw [if_pos ((runFolder_iff hn).2 h0), describeRun, print, quiet]
    rfl
  · intro names hn h1 h2
    refine ⟨sortStrs names, sortStrs_perm names, sortStrs_sorted names, ?_⟩
    rw [hn]
    simp only
    rw [if_neg (fun hc => h2 ((runFolder_iff hn).1 hc)), if_pos ((runsFolder_iff hn).2 h1), print, quiet]
  · rintro raws ⟨names, hn⟩ h1 h2 hr
    refine ⟨sortStrs raws, sortStrs_perm raws, sortStrs_sorted raws, ?_⟩
    rw [hn]
    have hd : fs.isDir (osJoin p ch! "raw") = true := by simp [LsFs.isDir, hr]
    have hnm : fs.names (osJoin p ch! "raw") = raws := by simp [LsFs.names, hr]
    simp only
    rw [if_neg (fun hc => h2 ((runFolder_iff hn).1 hc)), if_neg (fun hc => h1 ((runsFolder_iff hn).1 hc)), if_pos hd, print, print, hnm, quiet]
  · rintro ⟨names, hn⟩ h1 h2 h3
    rw [hn]
    have hd : ¬ fs.isDir (osJoin p ch! "raw") = true := by
      intro hc
      apply h3
      unfold LsFs.isDir at hc
      split at hc
      · next n hr => exact ⟨n, hr⟩
      · simp at hc
    simp only
    rw [if_neg (fun hc => h2 ((runFolder_iff hn).1 hc)), if_neg (fun hc => h1 ((runsFolder_iff hn).1 hc)), if_neg hd, print]
    rfl
  · intro hn h1
    rw [hn]
    simp only
    rw [if_neg (fun hc => h1 ⟨hn, (suffix_iff _ _).1 hc⟩), print]
    rfl
  · intro hn
    rw [hn]
    rfl

/-- C94: what is said about a data file: its trains; for a detector the pixels and frames, otherwise the sources in alphabetical order. -/
theorem ls_one_file (fs : LsFs) (p : Str) (h : Spec.DataFile fs p) (hn : Spec.Named (osBasename p)) (x : LsFile) (hx : fs.h5file p = .ok x) :
    ∃ descr, (Spec.IsDetFile (osBasename p) → ∀ src rest, x.detectorSources = src :: rest → ∀ a b n m, x.detectorInfo src = .ok ((a, b), n, m) →
      lsMain fs [p] = ([.name (osBasename p) descr, .trains x.trainIds.length, .pixels a b, .frames n m], .ok 0)) ∧
    (¬ Spec.IsDetFile (osBasename p) → ∃ inst ctrl : List Str, inst.Perm x.instrumentSources ∧ ctrl.Perm x.controlSources ∧
      inst.Pairwise (· ≤ ·) ∧ ctrl.Pairwise (· ≤ ·) ∧
      lsMain fs [p] = ([.name (osBasename p) descr, .trains x.trainIds.length, .instrument inst.length inst, .control ctrl.length ctrl], .ok 0)) := by
  obtain ⟨h1, h2⟩ := h
  have he := (suffix_iff p ch! ".h5").2 h2
  have e : lsMain fs [p] = lsOne fs p := by simp [lsMain]
  cases hi : filenameInfo (osBasename p) with
  | error e =>
    rw [filenameInfo_error hi, filename_fails] at hi
    exact absurd hn hi
  | ok info =>
    have hdet := info_detector _ hi
    rw [e]
    unfold lsOne
    simp only [h1, he, if_true]
    refine ⟨info.description, fun hd src rest hs a b n m hinfo => ?_, fun hd => ?_⟩
    · simp [describeFile, Pr.then, Pr.quiet, Pr.print, hi, hx, hdet.2 hd, hs, firstOf, hinfo]
    · refine ⟨sortStrs x.instrumentSources, sortStrs x.controlSources, sortStrs_perm _, sortStrs_perm _, sortStrs_sorted _, sortStrs_sorted _, ?_⟩
      have : info.isDetector = false := by
        rw [Bool.eq_false_iff]
        exact fun hc => hd (hdet.1 hc)
      simp [describeFile, Pr.then, Pr.quiet, Pr.print, hi, hx, this, (sortStrs_perm x.instrumentSources).length_eq, (sortStrs_perm x.controlSources).length_eq]

/-- C94: what is said about each of several paths. -/
theorem ls_many_kinds (fs : LsFs) (code : Nat) (p : Str) :
    (Spec.RunFolder fs p → ∀ t d o, countRun fs p = .ok (t, d, o) → lsStep fs code p = ([.run false (osBasename p) t d o], .ok code)) ∧
    (∀ names, fs.node p = some (.dir names) → Spec.RunsFolder fs p → ¬ Spec.RunFolder fs p →
      lsStep fs code p = (.proposal (osBasename p) :: (summariseRuns fs p names).1, (summariseRuns fs p names).2.map (fun _ => code))) ∧
    (Spec.Folder fs p → ¬ Spec.RunsFolder fs p → ¬ Spec.RunFolder fs p → lsStep fs code p = ([.unknownDir (osBasename p)], .ok 2)) ∧
    (Spec.DataFile fs p → Spec.IsDetFile (osBasename p) → ∀ x src rest, fs.h5file p = .ok x → x.detectorSources = src :: rest →
      ∀ a b n m, x.detectorInfo src = .ok ((a, b), n, m) → ∃ descr,
      lsStep fs code p = ([.name (osBasename p) descr, .detFile x.trainIds.length n m], .ok code)) ∧
    (fs.node p = some .file → ¬ Spec.DataFile fs p → lsStep fs code p = ([.unknownFile (osBasename p)], .ok 2)) ∧
    (fs.node p = none → lsStep fs code p = ([.notFound p], .ok 2)) := by
  have print : ∀ {α : Type} (x : LsOut) (g : Pr α), ((Pr.print x).then fun _ => g) = (x :: g.1, g.2) := by
    intro α x g
    simp [Pr.then, Pr.print]
  have quiet : ∀ (f : Pr Unit), (f.then fun _ => Pr.quiet (.ok code)) = (f.1, f.2.map (fun _ => code)) := by
    rintro ⟨a, b⟩
    cases b <;> simp [Pr.then, Pr.quiet, Except.map]
  unfold lsStep
  refine ⟨?_, ?_, ?_, ?_, ?_, ?_⟩
  · intro h t d o hc
    have h0 := h
    obtain ⟨names, hn, -⟩ := h
    simp only [hn]
    rw [if_pos ((runFolder_iff hn).2 h0)]
    simp [summariseRun, Pr.then, Pr.quiet, Pr.print, hc]
  · intro names hn h1 h2
    simp only [hn]
    rw [if_neg (fun hc => h2 ((runFolder_iff hn).1 hc)), if_pos ((runsFolder_iff hn).2 h1), print, quiet]
  · rintro ⟨names, hn⟩ h1 h2
    simp only [hn]
    rw [if_neg (fun hc => h2 ((runFolder_iff hn).1 hc)), if_neg (fun hc => h1 ((runsFolder_iff hn).1 hc)), print]
    rfl
  · rintro ⟨hn, hs⟩ hd x src rest hx hsrc a b n m hinfo
    cases hi : filenameInfo (osBasename p) with
    | error e =>
      rw [filenameInfo_error hi, filename_fails] at hi
      obtain ⟨rawcorr, run, s, seg, det, n', hname, -⟩ := hd
      exact absurd ⟨rawcorr, run, s, seg, hname⟩ hi
    | ok info =>
      refine ⟨info.description, ?_⟩
      simp only [hn, (suffix_iff _ _).2 hs, if_true]
      simp [summariseFile, Pr.then, Pr.quiet, Pr.print, hi, hx, (info_detector _ hi).2 hd, hsrc, firstOf, hinfo]
  · intro hn h1
    simp only [hn]
    rw [if_neg (fun hc => h1 ⟨hn, (suffix_iff _ _).1 hc⟩), print]
    rfl
  · intro hn
    simp only [hn]
    rfl

/-- C94: several paths are looked at one after the other, until an exception. -/
theorem ls_many_order (fs : LsFs) (p : Str) (ps : List Str) (code : Nat) :
    (∀ c, (lsStep fs code p).2 = .ok c → lsMany fs code (p :: ps) = ((lsStep fs code p).1 ++ (lsMany fs c ps).1, (lsMany fs c ps).2)) ∧
    (∀ e, (lsStep fs code p).2 = .error e → lsMany fs code (p :: ps) = ((lsStep fs code p).1, .error e)) := by
  simp only [lsMany, Pr.then]
  refine ⟨fun c h => by rw [h], fun e h => by rw [h]⟩

/-- A folder with one file of each kind. -/
example : Spec.RunFolder Spec.unevenRun ch! "/r" ∧ Spec.Recognised Spec.unevenRun ch! "/r" ∧
    lsMain Spec.unevenRun [ch! "/r", ch! "/nothing"] = ([.run false ch! "r" 1 2 1, .notFound ch! "/nothing"], .ok 2) := by
  have h : Spec.RunFolder Spec.unevenRun ch! "/r" := ⟨_, rfl, ch! "RAW-R0001-DA01-S00000.h5", by decide, ch! "RAW-R0001-DA01-S00000", rfl⟩
  exact ⟨h, Or.inl h, by decide⟩

end KD

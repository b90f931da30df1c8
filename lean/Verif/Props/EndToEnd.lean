/- Property C122: from the files on disk to the data read, through the cache and any selections. -/
import Verif.Spec.EndToEnd
import Verif.Props.History
import Verif.Props.OrderGaps
import Verif.Props.Validated
import Verif.Props.LoneProcess

namespace KD
open Spec

variable {V W : Type}

section
variable {disk : Str → Option (DiskFile V)} {candidates : List CacheFile} {path pattern : Str} {listing : List Str}
  {m : FilesMap} {c d : DC V} {instr : Bool} {source key : Str}

theorem sameFile_symm {f g : FileAccess V} (h : SameFile f g) : SameFile g f :=
  ⟨h.1.symm, h.2.1.symm, h.2.2.1.symm, fun s => (h.2.2.2.1 s).symm, fun s => (h.2.2.2.2 s).symm⟩

theorem sameFile_index {f g : FileAccess V} (h : SameFile f g) (s group : Str) : f.getIndex s group = g.getIndex s group := by
  unfold FileAccess.getIndex FileAccess.readIndex
  rw [h.2.1, h.2.2.1]

theorem indexedField_same {f g : FileAccess V} (h : SameFile f g) {instr : Bool} {source key : Str}
    (hv : IndexedField f instr source key) : IndexedField g instr source key := by
  obtain ⟨x1, x2, firsts, counts, ds, x3, x4, x5, x6, x7⟩ := hv
  refine ⟨h.2.2.1 ▸ x1, ?_, firsts, counts, ds, (sameFile_index h _ _) ▸ x3, ?_, h.2.2.1 ▸ x5, h.2.2.1 ▸ x6, x7⟩
  · cases instr with
    | true => exact ⟨(h.2.2.2.2 _).1 x2.1, fun hh => x2.2 ((h.2.2.2.1 _).2 hh)⟩
    | false => exact ⟨(h.2.2.2.1 _).1 x2.1, fun hh => x2.2 ((h.2.2.2.2 _).2 hh)⟩
  · rw [← x4]
    unfold FileAccess.dataset
    rw [h.2.1]

theorem followsOn_same {f g : FileAccess V} (h : SameFile f g) {T : List Nat} {instr : Bool} {source key : Str}
    (hv : FollowsOn f T instr source key) : FollowsOn g T instr source key := by
  intro firsts counts hix i0 i a b n hs
  refine hv firsts counts ((sameFile_index h _ _).trans hix) i0 i a b n ?_
  unfold Stretch at hs ⊢
  rw [h.2.2.1]
  exact hs

theorem sameFile_entries {f g : FileAccess V} (h : SameFile f g) (instr : Bool) (source key : Str) (t : Nat) :
    fileEntries f instr source key t = fileEntries g instr source key t := by
  obtain ⟨-, h2, h3, -, -⟩ := h
  unfold fileEntries FileAccess.getIndex FileAccess.readIndex FileAccess.dataset
  rw [h2, h3]

theorem pathJoin_inj {a b b' : Str} (h : pathJoin a b = pathJoin a b') : b = b' := by
  unfold pathJoin at h
  split at h
  · exact List.append_cancel_left h
  · have := List.append_cancel_left h
    exact (List.cons.inj this).2

theorem openAll_nil (names : List Str) :
    openAll disk path [] names = .ok (names.map (fun n => openFile disk (pathJoin path n) n none)) := by
  induction names with
  | nil => rfl
  | cons n names ih =>
    unfold openAll
    have : getInfo ([] : Dict Str MapInfo) true n = .ok none := rfl
    rw [this]
    simp only
    rw [ih]
    rfl

theorem runFile_iff {f : FileAccess V} : RunFile disk path listing pattern f ↔
    ∃ n ∈ runFiles listing pattern, openFile disk (pathJoin path n) n none = .ok f := by
  constructor
  · rintro ⟨n, h1, h2, h3, st, h, h4, h5⟩
    exact ⟨n, (run_files_exact _ _ _).2 ⟨h1, h2, h3⟩, openFile_ok_iff.2 ⟨_, h, h4, rfl, h5⟩⟩
  · rintro ⟨n, h1, h2⟩
    obtain ⟨⟨st, content⟩, h, h4, h5, h6⟩ := openFile_ok_iff.1 h2
    obtain ⟨a, b, e⟩ := (run_files_exact _ _ _).1 h1
    simp only at h5
    subst h5
    exact ⟨n, a, b, e, st, h, h4, h6⟩

theorem forall₂_left {α β : Type _} {R : α → β → Prop} {l : List α} {k : List β} (h : List.Forall₂ R l k) :
    (∀ a ∈ l, ∃ b ∈ k, R a b) ∧ ∀ b ∈ k, ∃ a ∈ l, R a b := by
  induction h with
  | nil => simp
  | cons hab _ ih =>
    refine ⟨fun a ha => ?_, fun b hb => ?_⟩
    · rcases List.mem_cons.1 ha with rfl | ha
      · exact ⟨_, by simp, hab⟩
      · obtain ⟨b, hb, h⟩ := ih.1 a ha; exact ⟨b, by simp [hb], h⟩
    · rcases List.mem_cons.1 hb with rfl | hb
      · exact ⟨_, by simp, hab⟩
      · obtain ⟨a, ha, h⟩ := ih.2 b hb; exact ⟨a, by simp [ha], h⟩

/-- C122. The files of an opened run are those which are on disk, no two of them conflict, and the train IDs are all those of
these files, in order. -/
theorem run_files_on_disk (hr : RightCache disk candidates) (h : runDirectory disk candidates path listing pattern = .ok (m, c)) :
    (∀ f ∈ c.files, ∃ g, RunFile disk path listing pattern g ∧ SameFile f g) ∧
    (∀ g, RunFile disk path listing pattern g → ∃ f ∈ c.files, SameFile f g) ∧
    NoConflict c.files ∧ (listing.Nodup → DifferentNames c) ∧
    c.trainIds.Pairwise (· < ·) ∧ ∀ t, t ∈ c.trainIds ↔ ∃ g, RunFile disk path listing pattern g ∧ t ∈ g.trainIds := by
  rcases run_directory_cache (path := path) (include_ := pattern) (listing := listing) hr.1 hr.2 with
    ⟨e, h1, -⟩ | ⟨m1, m', c1, d, h1, h2, h3, h4, -⟩
  · rw [h] at h1; simp at h1
  rw [h] at h1
  obtain ⟨rfl, rfl⟩ := Prod.mk.inj (Except.ok.inj h1)
  unfold runDirectory at h2
  simp only at h2
  split at h2
  · simp at h2
  have hload : FilesMap.load [] (fun f => (disk f).map DiskFile.stat) = .ok ⟨[], none⟩ := rfl
  rw [hload] at h2
  simp only at h2
  rw [openAll_nil] at h2
  simp only at h2
  split at h2
  · simp at h2
  next d' hd =>
  obtain ⟨-, rfl⟩ := Prod.mk.inj (Except.ok.inj h2)
  obtain ⟨files, f1, f2⟩ := fromPaths_ok hd
  obtain ⟨hnc, hmk⟩ := make_ok_iff.1 f2
  have hdf : d'.files = files := by rw [hmk]
  have hmem : ∀ g, g ∈ d'.files ↔ RunFile disk path listing pattern g := by
    intro g
    rw [hdf, f1, runFile_iff, List.mem_map]
  obtain ⟨l1, l2⟩ := forall₂_left h3
  obtain ⟨t1, t2⟩ := open_collection_train_ids hd
  refine ⟨fun f hf => ?_, fun g hg => l2 g ((hmem g).2 hg), (noConflict_same h3).2 (hdf ▸ hnc), fun hnd => ?_, h4 ▸ t1, ?_⟩
  · obtain ⟨g, hg, hs⟩ := l1 f hf
    exact ⟨g, (hmem g).1 hg, hs⟩
  · have hnames : c.files.map FileAccess.filename = d'.files.map FileAccess.filename := by
      clear * - h3
      generalize c.files = a at h3
      generalize d'.files = b at h3
      induction h3 with
      | nil => rfl
      | cons hab _ ih => simp only [List.map_cons, ih, hab.1]
    unfold DifferentNames
    rw [hnames]
    have hfiles : d'.files = ((runFiles listing pattern).map (fun n => openFile disk (pathJoin path n) n none)).filterMap
        Except.toOption := by
      unfold DC.fromPaths at hd
      simp only at hd
      split at hd
      · simp at hd
      · rw [(make_ok_iff.1 hd).2]
    rw [hfiles]
    have hrun : (runFiles listing pattern).Nodup := by
      unfold runFiles; exact (hnd.filter _).filter _
    generalize runFiles listing pattern = names at hrun
    clear * - hrun
    induction names with
    | nil => simp
    | cons n names ih =>
      obtain ⟨hn, hrest⟩ := List.nodup_cons.1 hrun
      rw [List.map_cons, List.filterMap_cons]
      cases ho : openFile disk (pathJoin path n) n none with
      | error e => exact ih hrest
      | ok f =>
        simp only [Except.toOption, List.map_cons]
        refine List.nodup_cons.2 ⟨fun hm => ?_, ih hrest⟩
        obtain ⟨g, hg, hgn⟩ := List.mem_map.1 hm
        obtain ⟨r, hr', hrg⟩ := List.mem_filterMap.1 hg
        obtain ⟨k, hk, rfl⟩ := List.mem_map.1 hr'
        cases hok : openFile disk (pathJoin path k) k none with
        | error e => rw [hok] at hrg; simp [Except.toOption] at hrg
        | ok g' =>
          rw [hok] at hrg
          obtain rfl := Option.some.inj hrg
          have e1 := openFile_name ho
          have e2 := openFile_name hok
          rw [e1, e2] at hgn
          exact hn (pathJoin_inj hgn ▸ hk)
  · intro t
    rw [h4, t2]
    constructor
    · rintro ⟨g, hg, ht⟩
      exact ⟨g, (hmem g).1 (hdf ▸ (f1 g).2 hg), ht⟩
    · rintro ⟨g, hg, ht⟩
      exact ⟨g, (f1 g).1 (hdf ▸ (hmem g).2 hg), ht⟩

/-- C122. Open a run directory, with a right cache or none, and make any number of selections. For a field whose entries,
for selected trains next to each other, follow each other in all files of the run, and which is of the same type in them, if it is still selected, `get_array` succeeds and gives for each selected train the
entries which the file on disk has for it, and nothing else. -/
theorem run_array_on_disk (hr : RightCache disk candidates) (hl : listing.Nodup)
    (h : runDirectory disk candidates path listing pattern = .ok (m, c)) (hn : Narrowed c d) (hav : Available d source key)
    (hv : RunFollows disk path listing pattern d.trainIds instr source key)
    (hty : RunOneType disk path listing pattern instr source key) (roi : V → W) :
    ∃ a, d.getArray source key roi = .ok a ∧ AllLabelled a ∧
      (∀ t ∈ d.trainIds, ∀ f, RunFile disk path listing pattern f → Holds f source → t ∈ f.trainIds →
        labelled a t = (fileEntries f instr source key t).map roi) ∧
      ∀ t, t ∉ d.trainIds ∨ (∀ f, RunFile disk path listing pattern f → Holds f source → t ∉ f.trainIds) → labelled a t = [] := by
  obtain ⟨r1, r2, hnc, hdn, -, -⟩ := run_files_on_disk hr h
  obtain ⟨i1, i2, -, i4⟩ := derived_parts (hdn hl) hnc hn.derived
  have hvd : FollowsIn d d.trainIds instr source key := by
    intro f hf hh
    obtain ⟨g, hg, hs⟩ := r1 f (i1 f hf)
    obtain ⟨v1, v2, v3, v4⟩ := hv g hg ((sameFile_holds hs source).1 hh)
    refine ⟨hs.2.2.1 ▸ v1, hs.2.2.1 ▸ v2, indexedField_same (sameFile_symm hs) v3, followsOn_same (sameFile_symm hs) v4⟩
  have hmis : ¬ Mismatch d instr source key := by
    rintro ⟨f, hf, g, hg, h1, h2, x, y, h3, h4, h5⟩
    obtain ⟨f', hf', sf⟩ := r1 f (i1 f hf)
    obtain ⟨g', hg', sg⟩ := r1 g (i1 g hg)
    have := hty f' g' hf' hg' ((sameFile_holds sf source).1 h1) ((sameFile_holds sg source).1 h2) x y
      (by rw [← h3]; unfold FileAccess.dataset; rw [sf.2.1]) (by rw [← h4]; unfold FileAccess.dataset; rw [sg.2.1])
    rcases h5 with h5 | h5
    · exact h5 this.1
    · exact h5 this.2
  obtain ⟨a, ha, -⟩ := (get_array_mismatch_gaps roi i4 hvd hav).2 hmis
  obtain ⟨a0, a1, a2⟩ := get_array_follows i4 hvd ha
  refine ⟨a, ha, a0, fun t ht g hg hh htg => ?_, fun t ht => ?_⟩
  · obtain ⟨f, hf, hs⟩ := r2 g hg
    have hhf := (sameFile_holds hs source).2 hh
    have htf : t ∈ f.trainIds := hs.2.2.1 ▸ htg
    have hfd := (narrowed_files hnc hn).2 source (mem_allSources.1 hav.1).1 t ht f hf hhf htf
    rw [a1 t ht f hfd hhf htf, sameFile_entries hs]
  · rcases ht with ht | ht
    · exact a2 t (Or.inl ht)
    · refine a2 t (Or.inr (fun f hf hh htf => ?_))
      obtain ⟨g, hg, hs⟩ := r1 f (i1 f hf)
      exact ht g hg ((sameFile_holds hs source).1 hh) (hs.2.2.1 ▸ htf)

/-- C122. The same for single trains: `train_from_id` shows for a field what the file on disk has for the train. -/
theorem run_train_on_disk (hr : RightCache disk candidates) (hl : listing.Nodup)
    (h : runDirectory disk candidates path listing pattern = .ok (m, c)) (hn : Narrowed c d) (hav : Available d source key)
    (hv : ∀ f, RunFile disk path listing pattern f → Holds f source → IndexedField f instr source key)
    (hone : instr = false → ∀ f, RunFile disk path listing pattern f → Holds f source → OnePerTrain f source)
    {t t' : Nat} {r : Dict Str (SourceData V)} (hm : d.trainFromId t = .ok (t', r)) :
    t ∈ d.trainIds ∧
    (∀ f, RunFile disk path listing pattern f → Holds f source → t ∈ f.trainIds →
      shownAt r source key = shown (fileEntries f instr source key t)) ∧
    ((∀ f, RunFile disk path listing pattern f → Holds f source → t ∉ f.trainIds) → shownAt r source key = none) := by
  obtain ⟨r1, r2, hnc, hdn, -, -⟩ := run_files_on_disk hr h
  obtain ⟨i1, i2, -, i4⟩ := derived_parts (hdn hl) hnc hn.derived
  have ht := (train_from_id_sources hm).2.1
  have hvd : IndexedIn d instr source key := by
    intro f hf hh
    obtain ⟨g, hg, hs⟩ := r1 f (i1 f hf)
    exact indexedField_same (sameFile_symm hs) (hv g hg ((sameFile_holds hs source).1 hh))
  have honed : instr = false → ∀ f ∈ d.files, Holds f source → OnePerTrain f source := by
    intro hi f hf hh
    obtain ⟨g, hg, hs⟩ := r1 f (i1 f hf)
    have := hone hi g hg ((sameFile_holds hs source).1 hh)
    unfold OnePerTrain FileAccess.getIndex FileAccess.readIndex at this ⊢
    rw [hs.2.1, hs.2.2.1]
    exact this
  obtain ⟨s1, s2⟩ := trainFromId_shown i4 hvd honed hav hm
  refine ⟨ht, fun g hg hh htg => ?_, fun hno => ?_⟩
  · obtain ⟨f, hf, hs⟩ := r2 g hg
    have hhf := (sameFile_holds hs source).2 hh
    have htf : t ∈ f.trainIds := hs.2.2.1 ▸ htg
    have hfd := (narrowed_files hnc hn).2 source (mem_allSources.1 hav.1).1 t ht f hf hhf htf
    rw [s1 f hfd hhf htf, sameFile_entries hs]
  · refine s2 ?_
    rintro ⟨f, hf, hh, htf⟩
    obtain ⟨g, hg, hs⟩ := r1 f (i1 f hf)
    exact hno g hg ((sameFile_holds hs source).1 hh) (hs.2.2.1 ▸ htf)

end

/-! ### After any history of processes -/

/-- All entries a process holds are complete. -/
def CompletePhase : Phase → Prop
  | .checking rest d => (∀ i ∈ rest, CompleteInfo i) ∧ ∀ n i, (n, i) ∈ d → CompleteInfo i
  | .opening _ d => ∀ n i, (n, i) ∈ d → CompleteInfo i
  | .saving _ d _ => ∀ n i, (n, i) ∈ d → CompleteInfo i
  | .writing _ doc => ∀ i ∈ doc, CompleteInfo i
  | _ => True

theorem procStep_complete {w : World V} {ncand : Nat} {q : Proc V} {b : Bool} {o : R Unit}
    (hc : ∀ pos, CompleteCache (w.caches pos)) (hq : CompletePhase q.phase) :
    CompletePhase (w.procStep ncand q b o).1.phase ∧
    ∀ pos doc, (w.procStep ncand q b o).2 = some (pos, doc) → ∀ i ∈ doc, CompleteInfo i := by
  unfold World.procStep
  split
  next pos hp =>
    split
    · cases hcp : w.caches pos with
      | missing => exact ⟨trivial, by simp⟩
      | garbled => exact ⟨trivial, by simp⟩
      | unreadable e => exact ⟨trivial, by simp⟩
      | document infos => exact ⟨⟨(hc pos).2 infos hcp, by simp⟩, by simp⟩
    · exact ⟨⟨by simp, by simp⟩, by simp⟩
  next d hp =>
    rw [hp] at hq
    exact ⟨hq.2, by simp⟩
  next info rest d hp =>
    rw [hp] at hq
    split
    · exact ⟨trivial, by simp⟩
    next d' hl =>
      refine ⟨⟨fun i hi => hq.1 i (by simp [hi]), fun n i hi => ?_⟩, by simp⟩
      rcases loadEntry_cases hl with rfl | ⟨name, st, -, -, rfl⟩
      · exact hq.2 n i hi
      · rcases mem_set hi with hi | ⟨-, rfl⟩
        · exact hq.2 n i hi
        · exact hq.1 i (by simp)
  next d hp =>
    rw [hp] at hq
    split
    · exact ⟨trivial, by simp⟩
    · exact ⟨hq, by simp⟩
  next name rest d hp =>
    rw [hp] at hq
    split
    · exact ⟨trivial, by simp⟩
    · exact ⟨hq, by simp⟩
  next pos d needSave hp =>
    rw [hp] at hq
    split
    next f hf =>
      split
      · exact ⟨trivial, by simp⟩
      next d' n' hs =>
        refine ⟨fun n i hi => ?_, by simp⟩
        unfold saveEntry at hs
        split at hs
        · split at hs
          · simp at hs
          next st hst =>
            obtain ⟨rfl, -⟩ := Prod.mk.inj (Except.ok.inj hs)
            rcases mem_set hi with hi | ⟨-, rfl⟩
            · exact hq n i hi
            · exact ⟨rfl, rfl, rfl, rfl, rfl, rfl⟩
        · obtain ⟨rfl, -⟩ := Prod.mk.inj (Except.ok.inj hs)
          exact hq n i hi
    · split
      · refine ⟨fun i hi => ?_, by simp⟩
        obtain ⟨n, hn⟩ := saveDoc_mem.1 hi
        exact hq n i hn
      · exact ⟨trivial, by simp⟩
  next pos doc hp =>
    rw [hp] at hq
    split
    · split
      · refine ⟨trivial, ?_⟩
        intro pos' doc' h
        obtain ⟨-, rfl⟩ := Prod.mk.inj (Option.some.inj h)
        exact hq
      · exact ⟨hq, by simp⟩
      · exact ⟨trivial, by simp⟩
    · exact ⟨trivial, by simp⟩
  · exact ⟨hq, by simp⟩

/-- The cache files stay complete in every history. -/
theorem history_complete {ncand : Nat} {w0 : World V} {evs : List (Event V)} (hs : ∀ p, w0.procs p = ⟨.idle, [], []⟩)
    (hc : CompleteCaches w0 evs) :
    (∀ pos, CompleteCache ((w0.run ncand evs).caches pos)) ∧ ∀ p, CompletePhase ((w0.run ncand evs).procs p).phase := by
  induction evs using List.reverseRecOn with
  | nil =>
    refine ⟨hc.1, fun p => ?_⟩
    rw [show w0.run ncand [] = w0 from rfl, hs p]
    trivial
  | append_singleton evs e ih =>
    obtain ⟨h1, h2⟩ := ih ⟨hc.1, fun pos c h => hc.2 pos c (by simp [h])⟩
    rw [run_snoc]
    generalize w0.run ncand evs = w at h1 h2
    cases e with
    | replace name file => exact ⟨h1, h2⟩
    | remove name => exact ⟨h1, h2⟩
    | modify name file => unfold World.step; simp only; split <;> exact ⟨h1, h2⟩
    | putCache pos c =>
      refine ⟨fun i => ?_, h2⟩
      show CompleteCache (if i = pos then c else w.caches i)
      split
      · exact hc.2 pos c (by simp)
      · exact h1 i
    | begin p names =>
      unfold World.step
      simp only
      split
      · refine ⟨h1, fun i => ?_⟩
        show CompletePhase (if i = p then _ else w.procs i).phase
        split
        · trivial
        · exact h2 i
      · exact ⟨h1, h2⟩
    | act p b o =>
      obtain ⟨g1, g2⟩ := procStep_complete (ncand := ncand) (b := b) (o := o) h1 (h2 p)
      refine ⟨fun i => ?_, fun i => ?_⟩
      · unfold World.step
        simp only
        cases hr : (w.procStep ncand (w.procs p) b o).2 with
        | none => exact h1 i
        | some x =>
          obtain ⟨pos, doc⟩ := x
          simp only
          split
          · exact ⟨by simp, fun infos h => by rw [← CacheFile.document.inj h]; exact g2 pos doc hr⟩
          · exact h1 i
      · show CompletePhase (if i = p then _ else w.procs i).phase
        split
        · exact g1
        · exact h2 i
    | crash p =>
      refine ⟨h1, fun i => ?_⟩
      show CompletePhase (if i = p then _ else w.procs i).phase
      split
      · trivial
      · exact h2 i

/-- C122. Whatever processes did before, the cache is right. -/
theorem history_right_cache {ncand : Nat} {w0 : World V} {evs : List (Event V)} (hs : Start w0 evs) (hid : StatIdentifies w0 evs)
    (ha : ∀ e ∈ evs, Allowed w0 evs e) (hc : CompleteCaches w0 evs) :
    RightCache (w0.run ncand evs).fileAt ((List.range ncand).map (w0.run ncand evs).caches) := by
  obtain ⟨h1, -⟩ := history_complete (ncand := ncand) hs.1 hc
  refine ⟨fun e he => ?_, ?_⟩
  · obtain ⟨pos, -, hp⟩ := List.mem_map.1 he
    exact (h1 pos).1 e hp
  · rintro infos ⟨before, after, heq, -⟩ i hi
    have hm : CacheFile.document infos ∈ (List.range ncand).map (w0.run ncand evs).caches := by rw [heq]; simp
    obtain ⟨pos, -, hp⟩ := List.mem_map.1 hm
    refine ⟨(h1 pos).2 infos hp i hi, fun name file hf hrec => ?_⟩
    have hinv := history_inv (ncand := ncand) hs hid ha evs [] (by simp)
    have hocc : Occurs w0 evs name file := by
      unfold World.fileAt at hf
      cases hn : (w0.run ncand evs).names name with
      | none => rw [hn] at hf; simp at hf
      | some ino =>
        rw [hn] at hf
        obtain rfl := Option.some.inj hf
        exact (hinv.files name ino hn).2
    exact cache_history_honest hs hid ha pos infos hp i hi name file hocc hrec

/-- C122. After any history in which data files are replaced and removed, cache files damaged, and any number of processes
open the run, save the cache and crash: if the run is opened then, and any number of selections are made, `get_array`
gives exactly what the files then on disk have. -/
theorem run_array_after_history {ncand : Nat} {w0 : World V} {evs : List (Event V)} (hs : Start w0 evs)
    (hid : StatIdentifies w0 evs) (ha : ∀ e ∈ evs, Allowed w0 evs e) (hcc : CompleteCaches w0 evs)
    {path pattern : Str} {listing : List Str} {m : FilesMap} {c d : DC V} {instr : Bool} {source key : Str}
    (hl : listing.Nodup)
    (h : runDirectory (w0.run ncand evs).fileAt ((List.range ncand).map (w0.run ncand evs).caches) path listing pattern =
      .ok (m, c)) (hn : Narrowed c d) (hav : Available d source key)
    (hv : RunFollows (w0.run ncand evs).fileAt path listing pattern d.trainIds instr source key)
    (hty : RunOneType (w0.run ncand evs).fileAt path listing pattern instr source key) (roi : V → W) :
    ∃ a, d.getArray source key roi = .ok a ∧ AllLabelled a ∧
      (∀ t ∈ d.trainIds, ∀ f, RunFile (w0.run ncand evs).fileAt path listing pattern f → Holds f source → t ∈ f.trainIds →
        labelled a t = (fileEntries f instr source key t).map roi) ∧
      ∀ t, t ∉ d.trainIds ∨ (∀ f, RunFile (w0.run ncand evs).fileAt path listing pattern f → Holds f source →
        t ∉ f.trainIds) → labelled a t = [] :=
  run_array_on_disk (history_right_cache hs hid ha hcc) hl h hn hav hv hty roi

/-- The history with four processes meets this too, and at its end the cache is about a file which is there. -/
example : CompleteCaches exWorld exHistory ∧ (exWorld.run 1 exHistory).caches 0 =
    .document [⟨some (ch! "a.h5"), some 2, some 5, some [20], some [], some []⟩] := by
  refine ⟨⟨fun _ => ⟨by simp [exWorld], by simp [exWorld]⟩, fun pos c h => ?_⟩, by decide⟩
  simp [exHistory, exSteps] at h

/-! ### A run with two files, a right cache, and selections -/

theorem exValid_right : RightCache exValidDisk exValidMap := by
  refine ⟨fun e he => by simp [exValidMap] at he, ?_⟩
  rintro infos ⟨before, after, h, hb⟩ i hi
  have hbefore : before = [] := by
    cases before with
    | nil => rfl
    | cons x xs =>
      have hx : x = .document _ := (List.cons.inj h).1.symm
      rcases hb x (by simp) with h' | h' <;> rw [h'] at hx <;> simp at hx
  subst hbefore
  have hdoc := (List.cons.inj h).1
  simp only [CacheFile.document.injEq] at hdoc
  rw [← hdoc] at hi
  have hfile : ∀ name file, exValidDisk name = some file →
      (name = ch! "a.h5" ∧ file = ⟨⟨1, 5⟩, .ok (exInst (ch! "a") [1, 2] [0, 2] [2, 1] [10, 11, 12]).file⟩) ∨
      (name = ch! "b.h5" ∧ file = ⟨⟨2, 6⟩, .ok (exInst (ch! "b") [3, 4] [0, 1] [1, 1] [20, 21]).file⟩) := by
    intro name file h
    unfold exValidDisk at h
    by_cases h1 : name = ch! "a.h5"
    · rw [if_pos h1] at h; exact Or.inl ⟨h1, (Option.some.inj h).symm⟩
    · rw [if_neg h1] at h
      by_cases h2 : name = ch! "b.h5"
      · rw [if_pos h2] at h; exact Or.inr ⟨h2, (Option.some.inj h).symm⟩
      · rw [if_neg h2] at h; simp at h
  have ha : readInfo (exInst (ch! "a") [1, 2] [0, 2] [2, 1] [10, 11, 12]).file = .ok ⟨[1, 2], [], [ch! "D:o"]⟩ := by decide
  have hb' : readInfo (exInst (ch! "b") [3, 4] [0, 1] [1, 1] [20, 21]).file = .ok ⟨[3, 4], [], [ch! "D:o"]⟩ := by decide
  simp only [List.mem_cons, List.not_mem_nil, or_false] at hi
  rcases hi with rfl | rfl
  · refine ⟨⟨rfl, rfl, rfl, rfl, rfl, rfl⟩, fun name file hf hrec => ?_⟩
    rcases hfile name file hf with ⟨rfl, rfl⟩ | ⟨rfl, rfl⟩
    · exact ⟨_, _, rfl, ha, rfl, ⟨[], rfl, fun _ => Iff.rfl⟩, ⟨_, rfl, fun _ => Iff.rfl⟩⟩
    · exact absurd hrec.1 (by decide)
  · refine ⟨⟨rfl, rfl, rfl, rfl, rfl, rfl⟩, fun name file hf hrec => ?_⟩
    rcases hfile name file hf with ⟨rfl, rfl⟩ | ⟨rfl, rfl⟩
    · exact absurd hrec.1 (by decide)
    · exact ⟨_, _, rfl, hb', rfl, ⟨[], rfl, fun _ => Iff.rfl⟩, ⟨_, rfl, fun _ => Iff.rfl⟩⟩

/-- The run opened through the cache, then the trains after the first. -/
def exNarrowed : R (DC Nat) :=
  match runDirectory exValidDisk exValidMap (ch! "r") [ch! "a.h5", ch! "x.txt", ch! "b.h5"] (ch! "*") with
  | .error e => .error e
  | .ok (_, c) => c.selectTrains (.indexSlice (some 1) none none)

example : exNarrowed.map (fun d => (d.trainIds, d.checkField (ch! "D:o") (ch! "data.y"),
      d.getArray (ch! "D:o") (ch! "data.y") id)) =
    .ok ([2, 3, 4], .ok (), .ok ⟨[12, 20, 21], some [2, 3, 4], [], 0⟩) := by decide

theorem exRunFile {f : FileAccess Nat} (h : RunFile exValidDisk (ch! "r") [ch! "a.h5", ch! "x.txt", ch! "b.h5"] (ch! "*") f) :
    f = exInst (ch! "r/a.h5") [1, 2] [0, 2] [2, 1] [10, 11, 12] ∨ f = exInst (ch! "r/b.h5") [3, 4] [0, 1] [1, 1] [20, 21] := by
  obtain ⟨n, hn, ho⟩ := runFile_iff.1 h
  have hr : runFiles [ch! "a.h5", ch! "x.txt", ch! "b.h5"] (ch! "*") = [ch! "a.h5", ch! "b.h5"] := by decide
  rw [hr] at hn
  have h1 : openFile exValidDisk (pathJoin (ch! "r") (ch! "a.h5")) (ch! "a.h5") none =
      .ok (exInst (ch! "r/a.h5") [1, 2] [0, 2] [2, 1] [10, 11, 12]) := by decide
  have h2 : openFile exValidDisk (pathJoin (ch! "r") (ch! "b.h5")) (ch! "b.h5") none =
      .ok (exInst (ch! "r/b.h5") [3, 4] [0, 1] [1, 1] [20, 21]) := by decide
  simp only [List.mem_cons, List.not_mem_nil, or_false] at hn
  rcases hn with rfl | rfl
  · rw [h1] at ho; exact Or.inl (Except.ok.inj ho).symm
  · rw [h2] at ho; exact Or.inr (Except.ok.inj ho).symm

theorem runFollows_of_valid {disk : Str → Option (DiskFile V)} {path pattern : Str} {listing : List Str} {T : List Nat} {instr : Bool}
    {source key : Str} (h : ∀ f, RunFile disk path listing pattern f → Holds f source → ValidField f instr source key) :
    RunFollows disk path listing pattern T instr source key := fun f hf hh =>
  ⟨(h f hf hh).trains, (h f hf hh).someTrain, (h f hf hh).indexed, followsOn_of_valid (h f hf hh)⟩

example (T : List Nat) : RunFollows exValidDisk (ch! "r") [ch! "a.h5", ch! "x.txt", ch! "b.h5"] (ch! "*") T true (ch! "D:o")
    (ch! "data.y") := by
  refine runFollows_of_valid fun f h _ => ?_
  rcases exRunFile h with rfl | rfl
  · exact exInst_valid (by decide) (by decide) rfl rfl (contiguous_cons rfl (contiguous_one _ _))
      (inBounds_cons (by decide) (inBounds_cons (by decide) (inBounds_nil _))) (by decide) (by decide)
  · exact exInst_valid (by decide) (by decide) rfl rfl (contiguous_cons rfl (contiguous_one _ _))
      (inBounds_cons (by decide) (inBounds_cons (by decide) (inBounds_nil _))) (by decide) (by decide)

example : RunOneType exValidDisk (ch! "r") [ch! "a.h5", ch! "x.txt", ch! "b.h5"] (ch! "*") true (ch! "D:o") (ch! "data.y") := by
  intro f g hf hg _ _ x y hx hy
  have key : ∀ f, f = exInst (ch! "r/a.h5") [1, 2] [0, 2] [2, 1] [10, 11, 12] ∨
      f = exInst (ch! "r/b.h5") [3, 4] [0, 1] [1, 1] [20, 21] → ∀ x, f.dataset (sectionName true) (ch! "D:o") (ch! "data.y") = .ok x →
      x.rowShape = [] ∧ x.dtype = 0 := by
    rintro f (rfl | rfl) x hx <;> (obtain rfl := Except.ok.inj (hx.symm.trans rfl); exact ⟨rfl, rfl⟩)
  obtain ⟨a1, a2⟩ := key f (exRunFile hf) x hx
  obtain ⟨b1, b2⟩ := key g (exRunFile hg) y hy
  exact ⟨a1.trans b1.symm, a2.trans b2.symm⟩

end KD

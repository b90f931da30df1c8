/- Property C122 for collections joined again with `union`, and for `get_series`. -/
import Verif.Props.EndToEnd
import Verif.Props.Series
import Verif.Lemmas.DetArray

namespace KD
open Spec

variable {V W : Type}
variable {disk : Str → Option (DiskFile V)} {candidates : List CacheFile} {path pattern : Str} {listing : List Str}
  {m : FilesMap} {c d : DC V} {instr : Bool} {source key : Str}

theorem sameFile_dataset {f g : FileAccess V} (h : SameFile f g) (sec s k : Str) : f.dataset sec s k = g.dataset sec s k := by
  unfold FileAccess.dataset
  rw [h.2.1]

theorem several_same {f g : FileAccess V} (h : SameFile f g) : Several f instr source key ↔ Several g instr source key := by
  unfold Several
  simp only [sameFile_entries h]

theorem seriesField_same {f g : FileAccess V} (h : SameFile f g) (hv : SeriesField f instr source key) :
    SeriesField g instr source key := by
  obtain ⟨x1, ⟨firsts, counts, y1, y2⟩, x3, x4⟩ := hv
  refine ⟨validField_same h x1, ⟨firsts, counts, (sameFile_index h _ _) ▸ y1, y2⟩, fun hi => ?_,
    fun hi hsev => validField_same h (x4 hi ((several_same h).2 hsev))⟩
  have := x3 hi
  unfold OnePerTrain FileAccess.getIndex FileAccess.readIndex at this ⊢
  rw [← h.2.1, ← h.2.2.1]
  exact this

/-- C122 with `union`. Open a run directory, with a right cache or none, and select from it and join what was selected in any way. For a
selected field `get_array` gives, for each train, either exactly the entries which the file on disk has for it or nothing; the entries
are there exactly if the train is selected and a file of the collection has it. -/
theorem run_union_array_on_disk (hr : RightCache disk candidates) (hl : listing.Nodup)
    (h : runDirectory disk candidates path listing pattern = .ok (m, c)) (hn : Derived c d) (hav : Available d source key)
    (hv : RunFollows disk path listing pattern d.trainIds instr source key)
    (hty : RunOneType disk path listing pattern instr source key) (roi : V → W) :
    ∃ a, d.getArray source key roi = .ok a ∧ AllLabelled a ∧
      (∀ t ∈ d.trainIds, Covered d source t → ∃ f, RunFile disk path listing pattern f ∧ Holds f source ∧ t ∈ f.trainIds ∧
        labelled a t = (fileEntries f instr source key t).map roi) ∧
      (∀ t ∈ d.trainIds, Covered d source t → ∀ f, RunFile disk path listing pattern f → Holds f source → t ∈ f.trainIds →
        labelled a t = (fileEntries f instr source key t).map roi) ∧
      ∀ t, t ∉ d.trainIds ∨ ¬ Covered d source t → labelled a t = [] := by
  obtain ⟨r1, r2, hnc, hdn, -, -⟩ := run_files_on_disk hr h
  obtain ⟨i1, i2, -, i4⟩ := derived_parts (hdn hl) hnc hn
  have hvd : FollowsIn d d.trainIds instr source key := by
    intro f hf hh
    obtain ⟨g, hg, hs⟩ := r1 f (i1 f hf)
    obtain ⟨v1, v2, v3, v4⟩ := hv g hg ((sameFile_holds hs source).1 hh)
    refine ⟨hs.2.2.1 ▸ v1, hs.2.2.1 ▸ v2, indexedField_same (sameFile_symm hs) v3, followsOn_same (sameFile_symm hs) v4⟩
  have hmis : ¬ Mismatch d instr source key := by
    rintro ⟨f, hf, g, hg, h1, h2, x, y, h3, h4, h5⟩
    obtain ⟨f', hf', sf⟩ := r1 f (i1 f hf)
    obtain ⟨g', hg', sg⟩ := r1 g (i1 g hg)
    have := hty f' g' hf' hg' ((sameFile_holds sf source).1 h1) ((sameFile_holds sg source).1 h2) x y
      ((sameFile_dataset sf _ _ _) ▸ h3) ((sameFile_dataset sg _ _ _) ▸ h4)
    rcases h5 with h5 | h5
    · exact h5 this.1
    · exact h5 this.2
  obtain ⟨a, ha, -⟩ := (get_array_mismatch_gaps roi i4 hvd hav).2 hmis
  obtain ⟨a0, a1, a2⟩ := get_array_follows i4 hvd ha
  refine ⟨a, ha, a0, ?_, ?_, fun t ht => ?_⟩
  · rintro t ht ⟨f, hf, hh, htf⟩
    obtain ⟨g, hg, hs⟩ := r1 f (i1 f hf)
    exact ⟨g, hg, (sameFile_holds hs source).1 hh, hs.2.2.1 ▸ htf, by rw [a1 t ht f hf hh htf, sameFile_entries hs]⟩
  · rintro t ht ⟨f, hf, hh, htf⟩ g hg hhg htg
    obtain ⟨f', hf', hs'⟩ := r2 g hg
    have hhf' := (sameFile_holds hs' source).2 hhg
    have htf' : t ∈ f'.trainIds := hs'.2.2.1 ▸ htg
    obtain rfl := same_file hnc (i1 f hf) hf' hh hhf' htf htf'
    rw [a1 t ht f hf hh htf, sameFile_entries hs']
  · refine a2 t (ht.imp id fun hno f hf hh htf => hno ⟨f, hf, hh, htf⟩)

/-- C122 for series. What `get_series` gives for each train: the entries which the file on disk has for it, labelled with its pulse IDs
on disk if some train of that file has several entries, or nothing; the entries are there exactly if the train is selected and a file of
the collection has it. -/
theorem run_series_on_disk (hr : RightCache disk candidates) (hl : listing.Nodup)
    (h : runDirectory disk candidates path listing pattern = .ok (m, c)) (hn : Derived c d)
    (hv : ∀ f, RunFile disk path listing pattern f → Holds f source → SeriesField f instr source key)
    {l : List (SeriesRow V)} (hser : d.getSeries source key = .ok l) :
    (∀ t ∈ d.trainIds, Covered d source t → ∀ f, RunFile disk path listing pattern f → Holds f source → t ∈ f.trainIds →
      (l.filter (fun r => r.tid = t)).map SeriesRow.val = fileEntries f instr source key t ∧
      (Several f instr source key → (l.filter (fun r => r.tid = t)).map SeriesRow.pulse =
        (fileEntries f true source (pulseIdKey key) t).map some) ∧
      (¬ Several f instr source key → ∀ r ∈ l, r.tid = t → r.pulse = none)) ∧
    (∀ t, t ∉ d.trainIds ∨ ¬ Covered d source t → ∀ r ∈ l, r.tid ≠ t) ∧
    (Narrowed c d → ∀ t ∈ d.trainIds, ∀ f, RunFile disk path listing pattern f → Holds f source → t ∈ f.trainIds →
      Covered d source t) := by
  obtain ⟨r1, r2, hnc, hdn, -, -⟩ := run_files_on_disk hr h
  obtain ⟨i1, i2, -, i4⟩ := derived_parts (hdn hl) hnc hn
  have hs : SeriesIn d instr source key := by
    intro f hf hh
    obtain ⟨g, hg, hs⟩ := r1 f (i1 f hf)
    exact seriesField_same (sameFile_symm hs) (hv g hg ((sameFile_holds hs source).1 hh))
  obtain ⟨d1, d2⟩ := get_series_exact i4 hs hser
  refine ⟨?_, fun t ht => d2 t (ht.imp id fun hno f hf hh htf => hno ⟨f, hf, hh, htf⟩), fun hnar t ht g hg hh htg => ?_⟩
  · rintro t ht ⟨f, hf, hh, htf⟩ g hg hhg htg
    obtain ⟨f', hf', hs'⟩ := r2 g hg
    have hhf' := (sameFile_holds hs' source).2 hhg
    have htf' : t ∈ f'.trainIds := hs'.2.2.1 ▸ htg
    obtain rfl := same_file hnc (i1 f hf) hf' hh hhf' htf htf'
    obtain ⟨e1, e2, e3⟩ := d1 t ht f hf hh htf
    rw [sameFile_entries hs'] at e1 
    rw [several_same hs', sameFile_entries hs'] at e2
    rw [several_same hs'] at e3
    exact ⟨e1, e2, e3⟩
  · obtain ⟨f, hf, hs'⟩ := r2 g hg
    have hhf := (sameFile_holds hs' source).2 hh
    have htf : t ∈ f.trainIds := hs'.2.2.1 ▸ htg
    have had : source ∈ d.allSources := by
      unfold DC.getSeries at hser
      cases hch : d.checkField source key with
      | error e => rw [hch] at hser; simp at hser
      | ok u => exact (checkField_ok.1 hch).1
    exact ⟨f, (narrowed_files hnc hnar).2 source (mem_allSources.1 had).1 t ht f hf hhf htf, hhf, htf⟩

/-- The run of the example of C122, from which the first and the last train are selected and joined again. -/
def exJoined : R (DC Nat) :=
  match runDirectory exValidDisk exValidMap (ch! "r") [ch! "a.h5", ch! "x.txt", ch! "b.h5"] (ch! "*") with
  | .error e => .error e
  | .ok (_, c) =>
    match c.selectTrains (.indexSlice none (some 1) none), c.selectTrains (.indexSlice (some 3) none none) with
    | .ok a, .ok b => a.union id [b]
    | _, _ => .error .value

example : exJoined.map (fun d => (d.trainIds, d.checkField (ch! "D:o") (ch! "data.y"),
      d.getArray (ch! "D:o") (ch! "data.y") id)) =
    .ok ([1, 4], .ok (), .ok ⟨[10, 11, 21], some [1, 1, 4], [], 0⟩) := by decide

/-- A run directory with one file, with two frames for its first train. -/
def exPulseDisk (name : Str) : Option (DiskFile Nat) := if name = ch! "a.h5" then some ⟨⟨1, 5⟩, .ok exPulse.file⟩ else none

def exPulseRun : R (DC Nat) := (runDirectory exPulseDisk [] (ch! "r") [ch! "a.h5"] (ch! "*")).map Prod.snd

example : RightCache exPulseDisk [] ∧
    (∀ f, RunFile exPulseDisk (ch! "r") [ch! "a.h5"] (ch! "*") f → Holds f (ch! "D:o") → SeriesField f true (ch! "D:o") (ch! "data.y")) ∧
    exPulseRun.map (fun c => c.getSeries (ch! "D:o") (ch! "data.y")) = .ok (.ok [⟨1, some 0, 10⟩, ⟨1, some 4, 11⟩, ⟨3, some 8, 12⟩]) := by
  refine ⟨⟨by simp, ?_⟩, ?_, by decide⟩
  · rintro infos ⟨before, after, h, -⟩; simp at h
  · intro f hf _
    obtain ⟨n, hn, ho⟩ := runFile_iff.1 hf
    have hr : runFiles [ch! "a.h5"] (ch! "*") = [ch! "a.h5"] := by decide
    rw [hr] at hn
    obtain rfl := List.mem_singleton.1 hn
    have h1 : openFile exPulseDisk (pathJoin (ch! "r") (ch! "a.h5")) (ch! "a.h5") none = .ok { exPulse with filename := ch! "r/a.h5" } := by
      decide
    obtain rfl := Except.ok.inj (h1.symm.trans ho)
    have hv : ∀ (key : Str) (rows : List Nat), exPulse.dataset (ch! "INSTRUMENT") (ch! "D:o") key = .ok ⟨rows, [1], 0⟩ →
        exPulse.getIndex (ch! "D:o") (groupName true key) = .ok ([0, 2], [2, 1]) → rows.length = 3 →
        ValidField { exPulse with filename := ch! "r/a.h5" } true (ch! "D:o") key := fun key rows h1 h2 h3 =>
      ⟨by decide, by decide, by decide, [0, 2], [2, 1], _, h2, h1, rfl, rfl, contiguous_cons rfl (contiguous_one _ _),
        inBounds_cons (by simp [h3]) (inBounds_cons (by simp [h3]) (inBounds_nil _))⟩
    exact ⟨hv _ [10, 11, 12] (by decide) (by decide) rfl, ⟨[0, 2], [2, 1], by decide, rfl⟩, by simp,
      fun _ _ => hv _ [0, 4, 8] (by decide) (by decide) rfl⟩

end KD

/-
C44 and C10: what happens with incomplete entries in the cache, and with run folders without files.
-/
import Verif.Props.FilesMap

set_option linter.unusedSimpArgs false

namespace KD
open Spec

variable {V : Type}

theorem loadEntry_error {stat : Str → Option Stat} {d : Dict Str MapInfo} {info : MapInfo} {e : PyErr} :
    loadEntry stat d info = .error e ↔ e = .key ∧ Incomplete stat info := by
  unfold loadEntry Incomplete
  cases info.filename with
  | none => simp [eq_comm]
  | some f =>
    cases hs : stat f with
    | none => simp [hs]
    | some st =>
      cases hm : info.mtime with
      | none => simp [hs, eq_comm]
      | some m =>
        simp only [hs]
        by_cases he : st.mtime = m
        · rw [if_pos he]
          cases hz : info.size with
          | none => simp [hs, he, eq_comm]
          | some z =>
            simp only
            split <;> simp [hs]
        · rw [if_neg he]
          have he' : ¬ m = st.mtime := fun h => he h.symm
          simp [hs, he']

/-- C44. When the cache is loaded, an entry which lacks its file name, or is about a file in the folder and lacks its time or (if
the time is right) its size, makes opening the run fail with KeyError. Nothing else in the entries makes it fail. -/
theorem load_error_iff {candidates : List CacheFile} {stat : Str → Option Stat} {infos : List MapInfo}
    (hf : FirstDocument candidates infos) (e : PyErr) :
    FilesMap.load candidates stat = .error e ↔ e = .key ∧ ∃ info ∈ infos, Incomplete stat info := by
  obtain ⟨p, hp⟩ := loadCandidates_first hf 0
  unfold FilesMap.load
  rw [hp]
  simp only
  have : ∀ d : Dict Str MapInfo, foldE (loadEntry stat) d infos = .error e ↔ e = .key ∧ ∃ info ∈ infos, Incomplete stat info := by
    clear hf hp
    induction infos with
    | nil => intro d; simp [foldE]
    | cons info infos ih =>
      intro d
      unfold foldE
      cases h : loadEntry stat d info with
      | error e' =>
        obtain ⟨rfl, hi⟩ := loadEntry_error.1 h
        simp only [Except.error.injEq, List.mem_cons, exists_eq_or_imp]
        exact ⟨fun h => ⟨h.symm, .inl hi⟩, fun h => h.1.symm⟩
      | ok d' =>
        have hno : ¬ Incomplete stat info := by
          intro hi
          rw [loadEntry_error.2 ⟨rfl, hi⟩] at h
          simp at h
        simp only [ih d', List.mem_cons, exists_eq_or_imp, hno, false_or]
  rw [← this []]
  cases foldE (loadEntry stat) [] infos <;> simp

/-- C44. A valid entry without the trains or the sources of the file: KeyError when the file is opened. -/
theorem get_error_iff (d : Dict Str MapInfo) (mine : Bool) (fname : Str) (e : PyErr) :
    getInfo d mine fname = .error e ↔ e = .key ∧ mine = true ∧ ∃ info, d.get? fname = some info ∧
      (info.trainIds = none ∨ info.controlSources = none ∨ info.instrumentSources = none) := by
  unfold getInfo
  cases mine with
  | false => simp
  | true =>
    simp only [if_true, true_and]
    cases hg : d.get? fname with
    | none => simp
    | some info =>
      simp only [Option.some.injEq, exists_eq_left']
      cases hi : infoOf info with
      | ok ci =>
        unfold infoOf at hi
        split at hi
        · next h1 h2 h3 => simp [h1, h2, h3]
        · simp at hi
      | error e' =>
        unfold infoOf at hi
        split at hi
        · simp at hi
        · next hno =>
          obtain rfl := Except.error.inj hi
          simp only [Except.error.injEq]
          constructor
          · rintro rfl
            refine ⟨rfl, ?_⟩
            by_contra hc
            push Not at hc
            obtain ⟨h1, h2, h3⟩ := hc
            obtain ⟨t, ht⟩ := Option.ne_none_iff_exists'.1 h1
            obtain ⟨c, hc⟩ := Option.ne_none_iff_exists'.1 h2
            obtain ⟨i, hi⟩ := Option.ne_none_iff_exists'.1 h3
            exact hno t c i ht hc hi
          · rintro ⟨rfl, -⟩
            rfl

/-- C10. A run folder in which no file matches cannot be opened, whatever is in the cache. -/
theorem run_directory_empty (disk : Str → Option (DiskFile V)) (candidates : List CacheFile) (path : Str) (listing : List Str)
    (include_ : Str) (h : ∀ f ∈ listing, ¬ (endsWith f (ch! ".h5") = true ∧ globMatch include_ f = true)) :
    runDirectory disk candidates path listing include_ = .error .generic := by
  have : runFiles listing include_ = [] := by
    unfold runFiles
    rw [List.filter_filter, List.filter_eq_nil_iff]
    intro f hf hm
    simp only [Bool.and_eq_true] at hm
    exact h f hf ⟨hm.2, hm.1⟩
  unfold runDirectory
  simp [this]

/-- Incomplete entries of both kinds, and one which does no harm as its file is gone. -/
example :
    let stat : Str → Option Stat := fun f => if f = ch! "a.h5" then some ⟨7, 100⟩ else none
    Incomplete stat ⟨none, some 7, some 100, none, none, none⟩ ∧ Incomplete stat ⟨some (ch! "a.h5"), some 7, none, none, none, none⟩ ∧
    ¬ Incomplete stat ⟨some (ch! "a.h5"), some 8, none, none, none, none⟩ ∧
    ¬ Incomplete stat ⟨some (ch! "b.h5"), none, none, none, none, none⟩ := by
  refine ⟨.inl rfl, .inr ⟨_, _, rfl, rfl, .inr ⟨rfl, rfl⟩⟩, ?_, ?_⟩
  · rintro (h | ⟨f, st, h1, h2, h3⟩)
    · simp at h
    · obtain rfl := Option.some.inj h1
      obtain rfl := Option.some.inj h2
      simp at h3
  · rintro (h | ⟨f, st, h1, h2, h3⟩)
    · simp at h
    · obtain rfl := Option.some.inj h1
      simp at h2

end KD

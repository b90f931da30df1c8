/- Property C43: validating a run directory. -/
import Verif.Model.RunValidation
import Verif.Props.FilesMap
import Verif.Props.Validation

set_option linter.unusedSimpArgs false

namespace KD
open Spec

variable {V : Type}

theorem sameSet_iff {a b : List Str} : sameSet a b = true ↔ ∀ s, s ∈ a ↔ s ∈ b := by
  unfold sameSet
  rw [Bool.and_eq_true, List.all_eq_true, List.all_eq_true]
  simp only [decide_eq_true_eq]
  exact ⟨fun h s => ⟨h.1 s, h.2 s⟩, fun h => ⟨fun s => (h s).1, fun s => (h s).2⟩⟩

/-- The file of this name can be opened and read, and this is the object. -/
def Opens (disk : Str → Option (DiskFile V)) (dir name : Str) (f : FileAccess V) : Prop :=
  ∃ file h, disk name = some file ∧ file.content = .ok h ∧ FileAccess.init (pathJoin dir name) h none = .ok f

theorem openFile_ok_iff {disk : Str → Option (DiskFile V)} {dir name : Str} {f : FileAccess V} :
    openFile disk (pathJoin dir name) name none = .ok f ↔ Opens disk dir name f := by
  unfold openFile Opens
  constructor
  · intro h
    cases hd : disk name with
    | none => rw [hd] at h; simp at h
    | some file =>
      rw [hd] at h
      obtain ⟨st, content⟩ := file
      cases content with
      | error e => simp at h
      | ok hh => exact ⟨_, hh, rfl, rfl, h⟩
  · rintro ⟨⟨st, content⟩, h, h1, h2, h3⟩
    simp only at h2
    subst h2
    rw [h1]
    exact h3

theorem runVal_init {disk : Str → Option (DiskFile V)} {dir : Str} {names : List Str} {v : RunVal V}
    (h : RunVal.init disk dir names = .ok v) :
    (∀ x, x ∈ v.files ↔ x.1 ∈ names ∧ Opens disk dir x.1 x.2) ∧
    (∀ p e, (p, e) ∈ v.excluded ↔ ∃ n ∈ names, p = pathJoin dir n ∧ openFile disk (pathJoin dir n) n none = .error e) := by
  unfold RunVal.init at h
  simp only at h
  split at h
  · simp at h
  obtain rfl := Except.ok.inj h
  constructor
  · rintro ⟨n, f⟩
    simp only [List.mem_filterMap, List.mem_map]
    constructor
    · rintro ⟨-, ⟨m, hm, rfl⟩, hx⟩
      simp only at hx
      split at hx
      next g hg =>
        obtain ⟨rfl, rfl⟩ := Prod.mk.inj (Option.some.inj hx)
        exact ⟨hm, openFile_ok_iff.1 hg⟩
      · simp at hx
    · rintro ⟨hn, ho⟩
      refine ⟨_, ⟨n, hn, rfl⟩, ?_⟩
      simp only
      rw [openFile_ok_iff.2 ho]
  · intro p e
    simp only [List.mem_filterMap, List.mem_map]
    constructor
    · rintro ⟨-, ⟨m, hm, rfl⟩, hx⟩
      simp only at hx
      split at hx
      · simp at hx
      next e' he =>
        obtain ⟨rfl, rfl⟩ := Prod.mk.inj (Option.some.inj hx)
        exact ⟨m, hm, rfl, he⟩
    · rintro ⟨n, hn, rfl, he⟩
      refine ⟨_, ⟨n, hn, rfl⟩, ?_⟩
      simp only
      rw [he]

/-- C43, part. When validation of a run returns, its report is exact: it has an item for every file which cannot be opened
or read, one saying so if there are no usable files, every problem of every usable file, and one for every usable file
about which the valid entry of the cache says something else than the file; and nothing else. Missing for the full claim:
that validation always returns (`validate_run_needs_cache`, `validate_run_conflict_wrong`, `validation_crashes`). -/
theorem validate_run_exact_partial {disk : Str → Option (DiskFile V)} {candidates : List CacheFile} {dir : Str}
    {names : List Str} {ps : List RunProblem} (h : validateRun disk candidates dir names = .ok ps) :
    (∀ path e, .cannotOpen path e ∈ ps ↔ ∃ n ∈ names, path = pathJoin dir n ∧
      openFile disk (pathJoin dir n) n none = .error e) ∧
    (.noFiles ∈ ps ↔ ∀ n ∈ names, ∀ f, ¬ Opens disk dir n f) ∧
    (∀ path p, .inFile path p ∈ ps ↔ ∃ n ∈ names, ∃ f qs, Opens disk dir n f ∧ path = f.filename ∧
      f.runChecks = .ok qs ∧ p ∈ qs) ∧
    ∃ m, FilesMap.load candidates (fun f => (disk f).map DiskFile.stat) = .ok m ∧
      ∀ cf path, .wrongEntry cf path ∈ ps ↔ cf = m.cacheFile ∧ ∃ n ∈ names, ∃ f ci, Opens disk dir n f ∧
        path = f.filename ∧ getInfo m.filesData true n = .ok (some ci) ∧
        ¬ SameInfo ci ⟨f.trainIds, f.controlSources, f.instrumentSources⟩ := by
  unfold validateRun at h
  split at h
  · simp at h
  next v hv =>
  obtain ⟨v1, v2⟩ := runVal_init hv
  unfold RunVal.runChecks at h
  split at h
  · simp at h
  next cs hcs =>
  split at h
  · simp at h
  next m hm =>
  split at h
  · simp at h
  next es hes =>
  obtain rfl := Except.ok.inj h
  have hcs' : ∀ x, x ∈ cs.flatten ↔ ∃ f ∈ v.files, ∃ l, checkFile f = .ok l ∧ x ∈ l := by
    intro x
    rw [List.mem_flatten]
    constructor
    · rintro ⟨l, hl, hx⟩
      obtain ⟨f, hf, hl⟩ := (mapE_mem hcs).1 hl
      exact ⟨f, hf, l, hl, hx⟩
    · rintro ⟨f, hf, l, hl, hx⟩
      exact ⟨l, (mapE_mem hcs).2 ⟨f, hf, hl⟩, hx⟩
  have hes' : ∀ x, x ∈ es.flatten ↔ ∃ f ∈ v.files, ∃ l, checkEntry m f = .ok l ∧ x ∈ l := by
    intro x
    rw [List.mem_flatten]
    constructor
    · rintro ⟨l, hl, hx⟩
      obtain ⟨f, hf, hl⟩ := (mapE_mem hes).1 hl
      exact ⟨f, hf, l, hl, hx⟩
    · rintro ⟨f, hf, l, hl, hx⟩
      exact ⟨l, (mapE_mem hes).2 ⟨f, hf, hl⟩, hx⟩
  have hc : ∀ f l x, checkFile (V := V) f = .ok l → x ∈ l → ∃ p, x = .inFile f.2.filename p := by
    intro f l x hl hx
    unfold checkFile at hl
    split at hl
    · simp at hl
    · obtain rfl := Except.ok.inj hl
      obtain ⟨p, -, rfl⟩ := List.mem_map.1 hx
      exact ⟨p, rfl⟩
  have he : ∀ f l x, checkEntry m (V := V) f = .ok l → (x ∈ l ↔ x = .wrongEntry m.cacheFile f.2.filename ∧
      ∃ ci, getInfo m.filesData true f.1 = .ok (some ci) ∧
        ¬ SameInfo ci ⟨f.2.trainIds, f.2.controlSources, f.2.instrumentSources⟩) := by
    intro f l x hl
    unfold checkEntry at hl
    split at hl
    · simp at hl
    · simp at hl
    next ci hci =>
      have hcond : (sameSet ci.controlSources f.2.controlSources = false ∨
          sameSet ci.instrumentSources f.2.instrumentSources = false ∨ ci.trainIds ≠ f.2.trainIds) ↔
          ¬ SameInfo ci ⟨f.2.trainIds, f.2.controlSources, f.2.instrumentSources⟩ := by
        unfold SameInfo
        simp only
        rw [← sameSet_iff, ← sameSet_iff]
        by_cases h1 : ci.trainIds = f.2.trainIds <;>
          cases sameSet ci.controlSources f.2.controlSources <;>
          cases sameSet ci.instrumentSources f.2.instrumentSources <;> simp [h1]
      split at hl
      next hw =>
        obtain rfl := Except.ok.inj hl
        rw [List.mem_singleton]
        exact ⟨fun hx => ⟨hx, ci, hci, hcond.1 hw⟩, fun hx => hx.1⟩
      next hw =>
        obtain rfl := Except.ok.inj hl
        constructor
        · intro hx; simp at hx
        · rintro ⟨-, ci', hci', hne⟩
          rw [hci] at hci'
          obtain rfl := Option.some.inj (Except.ok.inj hci')
          exact absurd (hcond.2 hne) hw
  have hmem : ∀ x, x ∈ v.checkOpenable ++ cs.flatten ++ es.flatten ↔
      ((∃ y ∈ v.excluded, x = .cannotOpen y.1 y.2) ∨ (x = .noFiles ∧ v.files = [])) ∨
        (∃ f ∈ v.files, ∃ l, checkFile f = .ok l ∧ x ∈ l) ∨ ∃ f ∈ v.files, ∃ l, checkEntry m f = .ok l ∧ x ∈ l := by
    intro x
    rw [List.mem_append, List.mem_append, hcs', hes', or_assoc]
    refine or_congr ?_ Iff.rfl
    unfold RunVal.checkOpenable
    rw [List.mem_append]
    refine or_congr ?_ ?_
    · rw [List.mem_map]
      exact ⟨fun ⟨y, h1, h2⟩ => ⟨y, h1, h2.symm⟩, fun ⟨y, h1, h2⟩ => ⟨y, h1, h2.symm⟩⟩
    · cases v.files <;> simp
  refine ⟨?_, ?_, ?_, m, hm, ?_⟩
  · intro path e
    rw [hmem, ← v2]
    constructor
    · rintro ((⟨⟨p, e'⟩, h1, h2⟩ | ⟨h1, -⟩) | ⟨f, -, l, h1, h2⟩ | ⟨f, -, l, h1, h2⟩)
      · obtain ⟨rfl, rfl⟩ := RunProblem.cannotOpen.inj h2
        exact h1
      · simp at h1
      · obtain ⟨p, hp⟩ := hc f l _ h1 h2; simp at hp
      · have := ((he f l _ h1).1 h2).1; simp at this
    · intro h1
      exact Or.inl (Or.inl ⟨(path, e), h1, rfl⟩)
  · rw [hmem]
    constructor
    · rintro ((⟨⟨p, e'⟩, h1, h2⟩ | ⟨-, h1⟩) | ⟨f, -, l, h1, h2⟩ | ⟨f, -, l, h1, h2⟩)
      · simp at h2
      · intro n hn f ho
        have := (v1 (n, f)).2 ⟨hn, ho⟩
        rw [h1] at this
        simp at this
      · obtain ⟨p, hp⟩ := hc f l _ h1 h2; simp at hp
      · have := ((he f l _ h1).1 h2).1; simp at this
    · intro h1
      refine Or.inl (Or.inr ⟨rfl, ?_⟩)
      rw [List.eq_nil_iff_forall_not_mem]
      intro x hx
      obtain ⟨g1, g2⟩ := (v1 x).1 hx
      exact h1 _ g1 _ g2
  · intro path p
    rw [hmem]
    constructor
    · rintro ((⟨⟨p, e'⟩, h1, h2⟩ | ⟨h1, -⟩) | ⟨f, hf, l, h1, h2⟩ | ⟨f, -, l, h1, h2⟩)
      · simp at h2
      · simp at h1
      · obtain ⟨g1, g2⟩ := (v1 f).1 hf
        unfold checkFile at h1
        split at h1
        · simp at h1
        next qs hq =>
          obtain rfl := Except.ok.inj h1
          obtain ⟨p', hp', hp''⟩ := List.mem_map.1 h2
          obtain ⟨rfl, rfl⟩ := RunProblem.inFile.inj hp''
          exact ⟨f.1, g1, f.2, qs, g2, rfl, hq, hp'⟩
      · have := ((he f l _ h1).1 h2).1; simp at this
    · rintro ⟨n, hn, f, qs, ho, rfl, hq, hp⟩
      refine Or.inr (Or.inl ⟨(n, f), (v1 (n, f)).2 ⟨hn, ho⟩, qs.map (fun p => .inFile f.filename p), ?_, ?_⟩)
      · unfold checkFile; simp only; rw [hq]
      · exact List.mem_map.2 ⟨p, hp, rfl⟩
  · intro cf path
    rw [hmem]
    constructor
    · rintro ((⟨⟨p, e'⟩, h1, h2⟩ | ⟨h1, -⟩) | ⟨f, -, l, h1, h2⟩ | ⟨f, hf, l, h1, h2⟩)
      · simp at h2
      · simp at h1
      · obtain ⟨p, hp⟩ := hc f l _ h1 h2; simp at hp
      · obtain ⟨g1, g2⟩ := (v1 f).1 hf
        obtain ⟨k1, ci, k2, k3⟩ := (he f l _ h1).1 h2
        obtain ⟨rfl, rfl⟩ := RunProblem.wrongEntry.inj k1
        exact ⟨rfl, f.1, g1, f.2, ci, g2, rfl, k2, k3⟩
    · rintro ⟨rfl, n, hn, f, ci, ho, rfl, hg, hne⟩
      have hf := (v1 (n, f)).2 ⟨hn, ho⟩
      obtain ⟨l, -, hl⟩ := mapE_ok_all hes hf
      exact Or.inr (Or.inr ⟨(n, f), hf, l, hl, (he (n, f) l _ hl).2 ⟨rfl, ci, hg, hne⟩⟩)

/-- C43 is false of the code: validating a run fails (with TypeError, if nothing else fails before) whenever some usable
file has no valid cache entry — in particular for every run with a usable file and no cache file. -/
theorem validate_run_needs_cache {disk : Str → Option (DiskFile V)} {candidates : List CacheFile} {dir : Str}
    {names : List Str} {n : Str} {f : FileAccess V} (hn : n ∈ names) (ho : Opens disk dir n f)
    (hno : ∀ infos, FirstDocument candidates infos → ∀ i ∈ infos, ∀ st, (disk n).map DiskFile.stat = some st →
      ¬ RecordedFor i n st) :
    ∃ e, validateRun disk candidates dir names = .error e := by
  cases h : validateRun disk candidates dir names with
  | error e => exact ⟨e, rfl⟩
  | ok ps =>
    unfold validateRun at h
    split at h
    · simp at h
    next v hv =>
    have hf := ((runVal_init hv).1 (n, f)).2 ⟨hn, ho⟩
    unfold RunVal.runChecks at h
    split at h
    · simp at h
    split at h
    · simp at h
    next m hm =>
    split at h
    · simp at h
    next es hes =>
    obtain ⟨l, -, hl⟩ := mapE_ok_all hes hf
    unfold checkEntry at hl
    split at hl
    · simp at hl
    · simp at hl
    next ci hci =>
      obtain ⟨-, infos, info, st, g1, g2, g3, g4, -⟩ := cache_entry_valid hm hci
      exact absurd g4 (hno infos g1 info g2 st g3)

/-- When validation returns: the usable files do not conflict, checking each of them does not fail, the cache can be
loaded, and there is a complete valid entry for each of them. -/
theorem validate_run_returns {disk : Str → Option (DiskFile V)} {candidates : List CacheFile} {dir : Str}
    {names : List Str} {m : FilesMap} (hm : FilesMap.load candidates (fun f => (disk f).map DiskFile.stat) = .ok m)
    (hconf : ∀ files : List (Str × FileAccess V),
      (∀ x ∈ files, x.1 ∈ names ∧ Opens disk dir x.1 x.2) → List.Sublist (files.map Prod.fst) names →
        NoConflict (files.map Prod.snd))
    (hcheck : ∀ n ∈ names, ∀ f, Opens disk dir n f → ∃ ps, f.runChecks = .ok ps)
    (hentry : ∀ n ∈ names, ∀ f, Opens disk dir n f → ∃ ci, getInfo m.filesData true n = .ok (some ci)) :
    ∃ ps, validateRun disk candidates dir names = .ok ps := by
  have hinit : ∃ v, RunVal.init disk dir names = .ok v := by
    unfold RunVal.init
    simp only
    split
    next e he =>
      exfalso
      unfold DC.make at he
      simp only at he
      split at he
      next hc =>
        refine hasConflicts_true.1 hc (hconf _ ?_ ?_)
        · rintro ⟨n, f⟩ hx
          simp only [List.mem_filterMap, List.mem_map] at hx
          obtain ⟨-, ⟨k, hk, rfl⟩, hx⟩ := hx
          simp only at hx
          split at hx
          next g hg =>
            obtain ⟨rfl, rfl⟩ := Prod.mk.inj (Option.some.inj hx)
            exact ⟨hk, openFile_ok_iff.1 hg⟩
          · simp at hx
        · clear hconf hcheck hentry hc
          induction names with
          | nil => simp
          | cons n names ih =>
            rw [List.map_cons, List.filterMap_cons]
            split
            · exact List.Sublist.cons _ ih
            next b hb =>
              simp only at hb
              split at hb
              · obtain rfl := Option.some.inj hb
                rw [List.map_cons]
                exact List.Sublist.cons_cons _ ih
              · simp at hb
      · simp at he
    · exact ⟨_, rfl⟩
  obtain ⟨v, hv⟩ := hinit
  have hfiles := (runVal_init hv).1
  unfold validateRun
  rw [hv]
  unfold RunVal.runChecks
  simp only
  split
  next e he =>
    obtain ⟨f, hf, e, h1⟩ := (mapE_error_iff (f := checkFile)).1 ⟨e, he⟩
    obtain ⟨g1, g2⟩ := (hfiles f).1 hf
    obtain ⟨ps, hps⟩ := hcheck _ g1 _ g2
    unfold checkFile at h1
    rw [hps] at h1
    simp at h1
  rw [hm]
  simp only
  split
  next e he =>
    obtain ⟨f, hf, e, h1⟩ := (mapE_error_iff (f := checkEntry m)).1 ⟨e, he⟩
    obtain ⟨g1, g2⟩ := (hfiles f).1 hf
    obtain ⟨ci, hci⟩ := hentry _ g1 _ g2
    unfold checkEntry at h1
    rw [hci] at h1
    simp only at h1
    split at h1 <;> simp at h1
  · exact ⟨_, rfl⟩

/-- A run of two files, one of which is not readable. -/
def exRunDisk : Str → Option (DiskFile Nat) := fun n =>
  if n = ch! "a.h5" then some ⟨⟨1, 5⟩, .ok ⟨some [5, 4], none, some [], none, [], [], []⟩⟩
  else if n = ch! "b.h5" then some ⟨⟨1, 6⟩, .error .os⟩ else none

/-- With a right, a wrong and no cache entry. -/
example :
    validateRun exRunDisk [.document [⟨some (ch! "a.h5"), some 1, some 5, some [5, 4], some [], some []⟩]] (ch! "r")
      [ch! "a.h5", ch! "b.h5"] = .ok [.cannotOpen (ch! "r/b.h5") .os, .inFile (ch! "r/a.h5") (.notIncreasing 0 5 4)] ∧
    validateRun exRunDisk [.document [⟨some (ch! "a.h5"), some 1, some 5, some [5], some [], some []⟩]] (ch! "r")
      [ch! "a.h5", ch! "b.h5"] = .ok [.cannotOpen (ch! "r/b.h5") .os, .inFile (ch! "r/a.h5") (.notIncreasing 0 5 4),
        .wrongEntry (some 0) (ch! "r/a.h5")] ∧
    validateRun exRunDisk [.missing] (ch! "r") [ch! "b.h5"] = .ok [.cannotOpen (ch! "r/b.h5") .os, .noFiles] ∧
    validateRun exRunDisk [.missing] (ch! "r") [ch! "a.h5", ch! "b.h5"] = .error .type :=
  ⟨by decide, by decide, by decide, by decide⟩

/-- Two files with the same source and train make validation fail with ValueError instead of being reported. -/
theorem validate_run_conflict_wrong :
    let file : DiskFile Nat := ⟨⟨1, 5⟩, .ok ⟨some [1], none, some [ch! "CONTROL/a"], none, [], [], []⟩⟩
    validateRun (fun _ => some file) [.missing] (ch! "r") [ch! "a.h5", ch! "b.h5"] = .error .value := by decide

end KD

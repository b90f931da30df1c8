/-
The files of a run directory as they are on disk.
-/
import Verif.Spec.FilesMapHistory
import Verif.Spec.Data
import Verif.Spec.History
import Verif.Spec.Stretch

namespace KD.Spec

variable {V : Type}

/-- `f` is what one sees when opening a file of the run by itself, without a cache: the file is listed in the directory, its
name ends with ".h5" and matches the pattern, and it can be read. -/
def RunFile (disk : Str → Option (DiskFile V)) (path : Str) (listing : List Str) (pattern : Str) (f : FileAccess V) : Prop :=
  ∃ name ∈ listing, (∃ base, name = base ++ ch! ".h5") ∧ globMatch pattern name = true ∧
    ∃ stat h, disk name = some ⟨stat, .ok h⟩ ∧ FileAccess.init (pathJoin path name) h none = .ok f

/-- The cache files can be read or are damaged or missing, and the one used is complete and right about the files now on
disk. -/
def RightCache (disk : Str → Option (DiskFile V)) (candidates : List CacheFile) : Prop :=
  (∀ e, .unreadable e ∉ candidates) ∧
    ∀ infos, FirstDocument candidates infos → ∀ i ∈ infos, CompleteInfo i ∧ TrueOnDisk disk i

/-- In all files of the run with the source, when the trains `T` are read: the trains increase, the index lies inside the data, and in
each stretch of selected trains the entries follow on from each other. -/
def RunFollows (disk : Str → Option (DiskFile V)) (path : Str) (listing : List Str) (pattern : Str) (T : List Nat) (instr : Bool)
    (source key : Str) : Prop :=
  ∀ f, RunFile disk path listing pattern f → Holds f source → f.trainIds.Pairwise (· < ·) ∧ f.trainIds ≠ [] ∧
    IndexedField f instr source key ∧ FollowsOn f T instr source key

/-- All files of the run with the source agree on the shape of entries and the type for this key. -/
def RunOneType (disk : Str → Option (DiskFile V)) (path : Str) (listing : List Str) (pattern : Str) (instr : Bool)
    (source key : Str) : Prop :=
  ∀ f g, RunFile disk path listing pattern f → RunFile disk path listing pattern g → Holds f source → Holds g source →
    ∀ x y, f.dataset (sectionName instr) source key = .ok x → g.dataset (sectionName instr) source key = .ok y →
      x.rowShape = y.rowShape ∧ x.dtype = y.dtype

/-- The cache file can be read or is damaged or missing, and its entries are complete. -/
def CompleteCache (c : CacheFile) : Prop :=
  (∀ e, c ≠ .unreadable e) ∧ ∀ infos, c = .document infos → ∀ i ∈ infos, CompleteInfo i

/-- All cache files from outside are complete: those at the start, and those put there by events. -/
def CompleteCaches (w : World V) (events : List (Event V)) : Prop :=
  (∀ pos, CompleteCache (w.caches pos)) ∧ ∀ pos c, .putCache pos c ∈ events → CompleteCache c

end KD.Spec

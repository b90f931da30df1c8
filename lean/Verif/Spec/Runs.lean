/-
Runs of consecutive trains in a file, and indexes which are right within each of them.
-/
import Verif.Spec.Components

namespace KD.Spec

variable {V : Type}

/-- The trains number `i` to `j` of the file are consecutive and selected, and as many as possible: the train ID before the first is
not selected, or the file begins there, and the train ID after the last is not selected, or the file ends there. -/
structure RunIn (f : FileAccess V) (T : List Nat) (i j : Nat) : Prop where
  order : i ≤ j
  selected : ∀ k, i ≤ k → k ≤ j → ∃ t, f.trainIds[k]? = some t ∧ t ∈ T
  consecutive : ∀ k t u, i ≤ k → k < j → f.trainIds[k]? = some t → f.trainIds[k + 1]? = some u → u = t + 1
  before : i = 0 ∨ ∃ t, f.trainIds[i]? = some t ∧ ∀ s, s + 1 = t → s ∉ T
  after : j + 1 = f.trainIds.length ∨ ∃ t, f.trainIds[j]? = some t ∧ t + 1 ∉ T

/-- In each run of consecutive selected trains the index is right: the entries of the trains with some, and the place of the last
train of the run, follow on from the place of the first train of the run, and the data goes that far. Between runs there can be
gaps, and a train without entries in the middle of a run can be anywhere. -/
structure RunField (f : FileAccess V) (T : List Nat) (source key : Str) : Prop where
  trains : f.trainIds.Pairwise (· < ·)
  someTrain : f.trainIds ≠ []
  data : ∃ firsts counts ds, f.getIndex source (groupName true key) = .ok (firsts, counts) ∧
    f.dataset (ch! "INSTRUMENT") source key = .ok ds ∧
    firsts.length = f.trainIds.length ∧ counts.length = f.trainIds.length ∧
    ∀ i j a, RunIn f T i j → firsts[i]? = some a →
      a + ((counts.drop i).take (j + 1 - i)).sum ≤ ds.rows.length ∧
      ∀ k b n, i ≤ k → k ≤ j → firsts[k]? = some b → counts[k]? = some n → n ≠ 0 ∨ k = j →
        b = a + ((counts.drop i).take (k - i)).sum

/-- The frames of a source can be read for the trains `T`: so for the data and for the pulse IDs, in all files with the source. -/
def RunsValid (c : DC V) (T : List Nat) (source key : Str) : Prop :=
  ∀ f ∈ c.files, Holds f source → RunField f T source key ∧ RunField f T source (pulseIdKey key)

end KD.Spec

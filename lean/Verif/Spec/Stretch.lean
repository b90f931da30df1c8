/-
Stretches of selected trains in a file, and indexes which need not be contiguous.
-/
import Verif.Spec.Data

namespace KD.Spec

variable {V : Type}

/-- The trains `i0` to `i` of the file are selected, the one before is not. -/
def Stretch (f : FileAccess V) (T : List Nat) (i0 i : Nat) : Prop :=
  i0 ≤ i ∧ (∀ j, i0 ≤ j → j ≤ i → ∃ t, f.trainIds[j]? = some t ∧ t ∈ T) ∧
  (i0 = 0 ∨ ∃ t, f.trainIds[i0 - 1]? = some t ∧ t ∉ T)

/-- A field of a file with any index: where the selected trains are looked for, there is data. -/
structure ReadableField (f : FileAccess V) (T : List Nat) (instr : Bool) (source key : Str) : Prop where
  trains : f.trainIds.Nodup
  someTrain : f.trainIds ≠ []
  category : if instr then source ∈ f.instrumentSources ∧ source ∉ f.controlSources
    else source ∈ f.controlSources ∧ source ∉ f.instrumentSources
  data : ∃ firsts counts ds, f.getIndex source (groupName instr key) = .ok (firsts, counts) ∧
    f.dataset (sectionName instr) source key = .ok ds ∧
    firsts.length = f.trainIds.length ∧ counts.length = f.trainIds.length ∧
    ∀ i0 i a, Stretch f T i0 i → firsts[i0]? = some a → a + ((counts.drop i0).take (i + 1 - i0)).sum ≤ ds.rows.length

/-- In each stretch of selected trains, the entries of a train with some follow on from the position of the first train of the stretch,
after the entries of the trains in between. Of trains without entries only the first of a stretch matters. -/
def FollowsOn (f : FileAccess V) (T : List Nat) (instr : Bool) (source key : Str) : Prop :=
  ∀ firsts counts, f.getIndex source (groupName instr key) = .ok (firsts, counts) →
    ∀ i0 i a b n, Stretch f T i0 i → firsts[i0]? = some a → firsts[i]? = some b → counts[i]? = some n → n ≠ 0 →
      b = a + ((counts.drop i0).take (i - i0)).sum

/-- The files with the source, when the trains `T` are read: their trains increase, the index lies inside the data, and in each stretch
of selected trains the entries follow on from each other. There may be gaps in the data between stretches. -/
def FollowsIn (c : DC V) (T : List Nat) (instr : Bool) (source key : Str) : Prop :=
  ∀ f ∈ c.files, Holds f source → f.trainIds.Pairwise (· < ·) ∧ f.trainIds ≠ [] ∧ IndexedField f instr source key ∧
    FollowsOn f T instr source key

end KD.Spec

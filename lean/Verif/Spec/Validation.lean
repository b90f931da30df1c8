/-
What a valid file is, for the validation tool.
-/
import Verif.Spec.Data

namespace KD.Spec

variable {V : Type}

/-- All zeros come after all the other train IDs. -/
def ZerosAtEnd (tids : List Nat) : Prop := ∃ ids n, tids = ids ++ List.replicate n 0 ∧ 0 ∉ ids

/-- Train IDs strictly increase, not looking at zeros. -/
def StrictlyIncreasing (tids : List Nat) : Prop := (tids.filter (fun t => t ≠ 0)).Pairwise (· < ·)

/-- The trains of an index follow each other with no gap at this position. -/
def GapAt (firsts counts : List Nat) (i : Nat) : Prop :=
  ∃ a n b, firsts[i]? = some a ∧ counts[i]? = some n ∧ firsts[i + 1]? = some b ∧ a + n < b

/-- The next train starts before this one ended. -/
def OverlapAt (firsts counts : List Nat) (i : Nat) : Prop :=
  ∃ a n b, firsts[i]? = some a ∧ counts[i]? = some n ∧ firsts[i + 1]? = some b ∧ b < a + n

/-- An index and the data it refers to: starts at 0, each train starts where the previous ended, and none reaches
beyond the data. -/
structure GoodIndex (firsts counts : List Nat) (size : Nat) : Prop where
  start : firsts.head? = some 0
  contiguous : Contiguous firsts counts
  inBounds : InBounds firsts counts size

/-- An instrument field of the file as its parts: the index (first, count) and the data. -/
def FieldParts (f : FileAccess V) (source key : Str) (firsts counts : List Nat) (size : Nat) : Prop :=
  f.getIndex source (groupName true key) = .ok (firsts, counts) ∧
    ∃ ds, f.dataset (sectionName true) source key = .ok ds ∧ ds.rows.length = size

/-- The instrument fields of the file can be read, and have one index entry for each train. -/
def FieldsReadable (f : FileAccess V) : Prop :=
  ∀ source ∈ f.instrumentSources, ∃ keys, f.getKeys source = .ok keys ∧ ∀ key ∈ keys,
    ∃ firsts counts size, FieldParts f source key firsts counts size ∧
      firsts.length = f.trainIds.length ∧ counts.length = f.trainIds.length

/-- The numbers in the indexes and sizes are not so large that the arithmetic of the validation overflows: 64 bits for
the ends of the trains, 53 bits (exact doubles) for the sizes of the datasets. -/
def NumbersFit (f : FileAccess V) : Prop :=
  ∀ source ∈ f.instrumentSources, ∀ keys, f.getKeys source = .ok keys → ∀ key ∈ keys, ∀ firsts counts size,
    FieldParts f source key firsts counts size →
    size < 2 ^ 53 ∧ ∀ (i a n : Nat), firsts[i]? = some a → counts[i]? = some n → a + n < 2 ^ 64

end KD.Spec

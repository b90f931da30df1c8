/-
A run written in parts to several files.
-/
import Verif.Spec.Copies
import Verif.Spec.History

namespace KD.Spec

variable {V : Type}

/-- `f` is the file which `write` or `write_virtual` of `p` made, opened again. Datasets have less than 2^64 entries. -/
def WrittenTo (p : DC V) (f : FileAccess V) : Prop :=
  ∃ (kind : WriteKind) (h : H5File V) (name : Str), p.writeAs kind = .ok h ∧ (∀ x ∈ h.datasets, x.2.rows.length < 2 ^ 64) ∧
    FileAccess.init name h none = .ok f

/-- The parts have no train of a source in common. -/
def PartsApart (p q : DC V) : Prop := ∀ s ∈ p.allSources, s ∈ q.allSources → ∀ t ∈ p.trainIds, t ∉ q.trainIds

/-- If both parts have a source, it is of the same kind and has the same keys. -/
def PartsAgree (p q : DC V) : Prop :=
  ∀ s ∈ p.allSources, s ∈ q.allSources → (∀ instr key, HasField p instr s key ↔ HasField q instr s key)

/-- One of the parts has the source and the train. -/
def InParts (parts : List (DC V × FileAccess V)) (s : Str) (t : Nat) : Prop :=
  ∃ x ∈ parts, s ∈ x.1.allSources ∧ t ∈ x.1.trainIds

/-- All trains of one part are before all trains of the other one, or the other way round, if the parts share a source. -/
def PartsInOrder (s : Str) (p q : DC V) : Prop :=
  s ∈ p.allSources → s ∈ q.allSources →
    (∀ t ∈ p.trainIds, ∀ u ∈ q.trainIds, t < u) ∨ (∀ t ∈ p.trainIds, ∀ u ∈ q.trainIds, u < t)

/-- The files of the collection which have a source hold separate ranges of trains. -/
def FilesInOrder (c : DC V) : Prop :=
  ∀ s, ∀ f ∈ c.files, ∀ g ∈ c.files, Holds f s → Holds g s → f ≠ g →
    (∀ t ∈ f.trainIds, ∀ u ∈ g.trainIds, t < u) ∨ (∀ t ∈ f.trainIds, ∀ u ∈ g.trainIds, u < t)

end KD.Spec

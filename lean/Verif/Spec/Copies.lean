/-
Copies of copies: what can be made of a collection by writing it to a file and opening that file, again and again.
-/
import Verif.Spec.Write
import Verif.Model.WriteDisk

namespace KD.Spec

variable {V : Type}

/-- `d` is `c` itself, or was opened (`H5File(path)`) from a file written by `write` or `write_virtual` of such a collection.
Datasets have less than 2^64 entries. -/
inductive CopyOf (c : DC V) : DC V → Prop
  | self : CopyOf c c
  | copy {d d' : DC V} {kind : WriteKind} {h : H5File V} {name : Str} : CopyOf c d → d.writeAs kind = .ok h →
      (∀ p ∈ h.datasets, p.2.rows.length < 2 ^ 64) → DC.fromPath (FileAccess.init name h none) = .ok d' → CopyOf c d'

end KD.Spec

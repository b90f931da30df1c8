/-
Collections made from another by the methods which select and join.
-/
import Verif.Spec.Data

namespace KD.Spec

variable {V : Type}

/-- Made from `c` by any number of calls of `select`, `deselect` and `select_trains`. -/
inductive Narrowed (c : DC V) : DC V → Prop
  | same : Narrowed c c
  | select {d e : DC V} {sel : SelArg} : Narrowed c d → d.select sel = .ok e → Narrowed c e
  | deselect {d e : DC V} {sel : SelArg} : Narrowed c d → d.deselect sel = .ok e → Narrowed c e
  | selectTrains {d e : DC V} {tr : TrainRange} : Narrowed c d → d.selectTrains tr = .ok e → Narrowed c e

/-- Made from `c` by any number of calls of `select`, `deselect`, `select_trains` and `union`, where the collections joined
by `union` are made from `c` in such a way too; `union` takes the files in any order. -/
inductive Derived (c : DC V) : DC V → Prop
  | same : Derived c c
  | select {d e : DC V} {sel : SelArg} : Derived c d → d.select sel = .ok e → Derived c e
  | deselect {d e : DC V} {sel : SelArg} : Derived c d → d.deselect sel = .ok e → Derived c e
  | selectTrains {d e : DC V} {tr : TrainRange} : Derived c d → d.selectTrains tr = .ok e → Derived c e
  | union {d e : DC V} {others : List (DC V)} {order : List (FileAccess V) → List (FileAccess V)} :
      Derived c d → (∀ o ∈ others, Derived c o) → (∀ l, (order l).Perm l) → d.union order others = .ok e → Derived c e

/-- The files of the collection have different names. -/
def DifferentNames (c : DC V) : Prop := (c.files.map FileAccess.filename).Nodup

/-- What `train_from_id` shows for a source and key. -/
def shownAt (d : Dict Str (SourceData V)) (source key : Str) : Option (Entry V) :=
  match d.get? source with
  | some sd => sd.data.get? key
  | none => none

end KD.Spec

/-
`QuickView`, /repo/karabo_data/utils.py:18-114: looking through the images of an array. matplotlib is not modelled apart from which image
and title were shown last.
-/
import Verif.Model.Py

namespace KD

/-- A numpy array: its shape, the parts along the first dimension, and whether its only element is true (if there is only one). -/
structure QArr (V : Type) where
  shape : List Nat
  frame : Nat → V
  single : Bool

/-- A value given as data: None, an array or another object (with its truth value). -/
inductive QArg (V : Type) where
  | none
  | array (a : QArr V)
  | other (truth : Bool)

/-- The attributes of a `QuickView`: `_data`, `_current_index`, and the image and the title which are shown, utils.py:49-51. -/
structure Quick (V : Type) where
  data : Option (QArr V)
  index : Int
  shown : Option V
  title : Option Int

/-- The attributes of the class, utils.py:49-51. -/
def Quick.new {V : Type} : Quick V := ⟨none, 0, none, none⟩

/-- The length of the first dimension. -/
def QArr.len {V : Type} (a : QArr V) : Nat := a.shape.headD 0

/-- A negative index counts from the end (numpy). -/
def wrapIndex (i : Int) (n : Nat) : Int := if i < 0 then i + n else i

/-- `display`, utils.py:94-108: the state afterwards, and the exception if there was one. -/
def Quick.display {V : Type} (q : Quick V) (index : Option Int) : Quick V × R Unit :=
  let i := index.getD q.index
  match q.data with
  | none => (q, .error .type)
  | some a =>
    let j := wrapIndex i a.len
    if 0 ≤ j ∧ j < a.len then ({ q with shown := some (a.frame j.toNat), title := some i }, .ok ()) else (q, .error .index)

/-- The setter of `data`, utils.py:75-82. -/
def Quick.setData {V : Type} (q : Quick V) : QArg V → Quick V × R Unit
  | .array a =>
    if a.shape.length ≠ 3 then (q, .error .type) else Quick.display { q with data := some a, index := 0 } none
  | _ => (q, .error .type)

/-- The truth value of the argument, `if data:`, utils.py:54: ValueError for an array of more than one element. -/
def QArg.truth {V : Type} : QArg V → R Bool
  | .none => .ok false
  | .other b => .ok b
  | .array a => if a.shape.prod = 0 then .ok false else if a.shape.prod = 1 then .ok a.single else .error .value

/-- `QuickView(data)`, utils.py:53-55. -/
def Quick.init {V : Type} (arg : QArg V) : Quick V × R Unit :=
  match arg.truth with
  | .error e => (.new, .error e)
  | .ok false => (.new, .ok ())
  | .ok true => Quick.setData .new arg

/-- The setter of `pos`, utils.py:61-69: there is no method `show`. -/
def Quick.setPos {V : Type} (q : Quick V) (pos : Int) : Quick V × R Unit :=
  match q.data with
  | none => (q, .ok ())
  | some a => if 0 ≤ pos ∧ pos < a.len then ({ q with index := pos }, .error .attribute) else (q, .error .value)

/-- `next`, utils.py:84-87; without data there is no length (line 114). -/
def Quick.next {V : Type} (q : Quick V) : Quick V × R Unit :=
  match q.data with
  | none => (q, .error .attribute)
  | some a => if q.index < a.len then Quick.display { q with index := q.index + 1 } none else (q, .ok ())

/-- `prev`, utils.py:89-92. -/
def Quick.prev {V : Type} (q : Quick V) : Quick V × R Unit :=
  if q.index > 0 then Quick.display { q with index := q.index - 1 } none else (q, .ok ())

/-- What a user does. -/
inductive QOp (V : Type) where
  | setData (arg : QArg V)
  | setPos (pos : Int)
  | next
  | prev
  | display (index : Option Int)

/-- One operation; the object can be used after an exception. -/
def Quick.step {V : Type} (q : Quick V) : QOp V → Quick V × R Unit
  | .setData arg => q.setData arg
  | .setPos pos => q.setPos pos
  | .next => q.next
  | .prev => q.prev
  | .display index => q.display index

/-- A sequence of operations: the state at the end, and the results of all. -/
def Quick.run {V : Type} : Quick V → List (QOp V) → Quick V × List (R Unit)
  | q, [] => (q, [])
  | q, op :: ops =>
    let r := q.step op
    let rest := Quick.run r.1 ops
    (rest.1, r.2 :: rest.2)

end KD

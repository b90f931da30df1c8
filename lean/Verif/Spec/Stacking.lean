/-
What stacking means: the module number in the name of a source, the data of a module in a train, the order of devices,
and when a train can be stacked.
-/
import Verif.Spec.Detector
import Verif.Model.Stacking
import Mathlib.Data.Nat.Digits.Defs

namespace KD.Spec

variable {V : Type}

/-- The number written by decimal digits. -/
def decimal (digits : Str) : Nat := Nat.ofDigits 10 (digits.reverse.map (fun c => c.toNat - '0'.toNat))

/-- `n` is the module number in the name of a source: the number at the first `/DET/…CH`. -/
def ModuleOf (dev : Str) (n : Nat) : Prop :=
  ∃ before rest digits, dev = before ++ rest ∧ DetHere rest digits ∧ n = decimal digits ∧
    ∀ before' rest' digits', dev = before' ++ rest' → DetHere rest' digits' → before.length ≤ before'.length

/-- Some source of the train has the array `a` for the key. -/
def Present (train : Dict Str (Dict Str (Arr V))) (data : Str) (a : Arr V) : Prop :=
  ∃ x ∈ train, x.2.get? data = some a

/-- `a` is the array of module `n`: the one of the last source which has this module number and data for the key. -/
def DataOf (train : Dict Str (Dict Str (Arr V))) (data : Str) (n : Nat) (a : Arr V) : Prop :=
  ∃ before x after, train = before ++ x :: after ∧ ModuleOf x.1 n ∧ x.2.get? data = some a ∧
    ∀ y ∈ after, ModuleOf y.1 n → y.2.get? data = none

/-- All arrays have the shape `shape`, or are empty with otherwise the same dimensions. -/
def ShapesFit (train : Dict Str (Dict Str (Arr V))) (data : Str) (shape : List Nat) : Prop :=
  ∀ a, Present train data a → a.shape = shape ∨ ∃ n rest, shape = n :: rest ∧ a.shape = 0 :: rest

/-- A train which can be stacked: there are only detector modules, their data have one dtype and fitting shapes, and the
modules with data (at least one) exist in a detector with `modules` modules. -/
structure Stackable (train : Dict Str (Dict Str (Arr V))) (data : Str) (modules : Nat) (dtype : Nat) (shape : List Nat) :
    Prop where
  detectors : ∀ x ∈ train, ∃ n, ModuleOf x.1 n
  dtypes : ∀ a, Present train data a → a.dtype = dtype
  shapes : ShapesFit train data shape
  some_data : ∃ n a, DataOf train data n a ∧ a.shape = shape
  modules : ∀ n a, DataOf train data n a → a.shape = shape → n < modules

/-- The integers in the name of a device. -/
def numbersIn (dev : Str) : List Nat :=
  (((dev.splitOnP (fun c => !c.isDigit)).filter (fun g => g ≠ [])).map decimal)

/-- The array of module `m` of a view: its data, or an array of fill values. -/
def moduleArray (v : StackView V) (m : Nat) : Arr V :=
  match v.data.get? m with
  | some a => a
  | none => ⟨v.dtype, v.modShape, fun _ => v.fill⟩

/-- A view as stack_detector_data makes it with an axis in range: `k` is the position of the stacking axis. -/
structure GoodView (v : StackView V) (k : Nat) : Prop where
  keys : v.data.keys.Nodup
  range : ∀ m a, v.data.get? m = some a → 0 ≤ m ∧ m < v.nmodules
  shapes : ∀ m a, v.data.get? m = some a → a.shape = v.modShape ∧ a.dtype = v.dtype
  axis : v.stackAxis = k
  axis_le : k ≤ v.modShape.length
  some_data : v.data ≠ []

/-- Two arrays with the same dtype, shape and elements. -/
def SameArr (a b : Arr V) : Prop :=
  a.dtype = b.dtype ∧ a.shape = b.shape ∧ ∀ idx, List.Forall₂ (· < ·) idx a.shape → a.get idx = b.get idx

/-- Two views with the same modules. -/
def SameView (v w : StackView V) : Prop :=
  v.nmodules = w.nmodules ∧ v.modShape = w.modShape ∧ v.dtype = w.dtype ∧ v.fill = w.fill ∧ v.stackAxis = w.stackAxis ∧
    ∀ m, m < v.nmodules → moduleArray v m = moduleArray w m

/-- The same error, array, or view. -/
def SameItem : R (Item V) → R (Item V) → Prop
  | .error e, .error e' => e = e'
  | .ok (.arr a), .ok (.arr b) => a = b
  | .ok (.view v), .ok (.view w) => SameView v w ∧ v.asArray = w.asArray
  | _, _ => False

/-- The index does not ask for a module before the first one. -/
def InRangeIx (v : StackView V) (k : Nat) (ixs : List Ix) : Prop :=
  ∀ i, (expandIx ixs v.ndim)[k]? = some (.int i) → -(v.nmodules : Int) ≤ i

/-- The number of slices in an index: the dimensions which stay. -/
def keptDims (ixs : List Ix) : Nat := (ixs.filter (fun x => match x with | .slice .. => true | _ => false)).length

end KD.Spec

/-
Model of /repo/karabo_data/stacking.py: stacking the data of several devices or detector modules.
-/
import Verif.Model.NdArray

namespace KD

variable {V : Type}

/-! ### stack_data -/

/-- `a <= b` for Python lists or tuples of integers: the first difference decides. -/
def lexLe : List Nat → List Nat → Bool
  | [], _ => true
  | _ :: _, [] => false
  | x :: a, y :: b => if x = y then lexLe a b else decide (x < y)

/-- `int(digits)`. Simplification here and below: `\d` matches only the ASCII digits. -/
def parseNat (digits : Str) : Nat := digits.foldl (fun n c => 10 * n + (c.toNat - '0'.toNat)) 0

/-- `re.findall(r'\d+', s)`, stacking.py:45: `cur` are the digits just before. -/
def digitGroupsAux (cur : Str) : Str → List Str
  | [] => if cur = [] then [] else [cur]
  | c :: rest =>
    if c.isDigit then digitGroupsAux (cur ++ [c]) rest
    else if cur = [] then digitGroupsAux [] rest else cur :: digitGroupsAux [] rest

/-- The sorting key of a device, stacking.py:45. -/
def deviceKey (dev : Str) : List Nat := (digitGroupsAux [] dev).map parseNat

/-- `train[device][data]`, stacking.py:46. -/
def deviceData (train : Dict Str (Dict Str (Arr V))) (data : Str) (d : Str) : R (Arr V) :=
  match train.get? d with
  | none => .error .key
  | some values =>
    match values.get? data with
    | none => .error .key
    | some a => .ok a

/-- `stack_data(train, data, axis, xcept)`, stacking.py:9-53. -/
def stackData (train : Dict Str (Dict Str (Arr V))) (data : Str) (axis : Int) (xcept : List Str) : R (Arr V) :=
  let devices := train.keys.filter (fun d => d ∉ xcept)
  if devices = [] then .error .value
  else
    match mapE (deviceData train data) (devices.insertionSort (fun a b => lexLe (deviceKey a) (deviceKey b))) with
    | .error e => .error e
    | .ok arrays =>
      if ((arrays.map Arr.dtype).dedup).length > 1 then .error .value else npStack arrays axis

/-! ### stack_detector_data -/

/-- `re.search(r'/DET/(\d+)CH', device)`, stacking.py:91: the digits at the first place where it matches. -/
def searchDet : Str → Option Str
  | [] => none
  | c :: rest =>
    let digits := ((c :: rest).drop 5).takeWhile Char.isDigit
    if startsWith (c :: rest) (ch! "/DET/") ∧ digits ≠ [] ∧
        startsWith (((c :: rest).drop 5).drop digits.length) (ch! "CH") then some digits
    else searchDet rest

/-- The three sets and dictionaries filled by the loop in stacking.py:88-102. -/
structure Collected (V : Type) where
  dtypes : List Nat
  shapes : List (List Nat)
  mods : Dict Int (Arr V)

/-- `s.add(x)` for a set given as a list. -/
def addTo {α : Type} [DecidableEq α] (x : α) (l : List α) : List α := if x ∈ l then l else l ++ [x]

/-- One step of the loop, stacking.py:90-102. -/
def collectModule (data : Str) (c : Collected V) (dev : Str × Dict Str (Arr V)) : R (Collected V) :=
  match searchDet dev.1 with
  | none => .error .value
  | some digits =>
    match dev.2.get? data with
    | none => .ok c
    | some a => .ok ⟨addTo a.dtype c.dtypes, addTo a.shape c.shapes, c.mods.set (parseNat digits : Int) a⟩

/-- Leaving out modules with empty arrays, stacking.py:106-113. `s1[0]` fails for a shape without dimensions. -/
def dropEmpty (shapes : List (List Nat)) (mods : Dict Int (Arr V)) : R (List (List Nat) × Dict Int (Arr V)) :=
  match shapes.insertionSort (fun a b => lexLe a b) with
  | s1 :: s2 :: more =>
    if more ≠ [] then .error .value
    else
      match s1 with
      | [] => .error .index
      | d :: rest =>
        if d ≠ 0 ∨ rest ≠ s2.drop 1 then .error .value
        else .ok (shapes.erase s1, mods.filter (fun x => decide (x.2.shape ≠ s1)))
  | _ => .ok (shapes, mods)

/-- `max(modno_arrays)`, stacking.py:114; ValueError when empty. -/
def maxModule : Dict Int (Arr V) → R Int
  | [] => .error .value
  | (m, _) :: rest => .ok (rest.foldl (fun x y => max x y.1) m)

/-- `StackView`, stacking.py:129-147. `fill` is the fill value converted to the dtype (simplification: the conversion
itself is left open). `stackAxis` is the attribute `_stack_axis`, after line 145. -/
structure StackView (V : Type) where
  data : Dict Int (Arr V)
  nmodules : Nat
  modShape : List Nat
  dtype : Nat
  fill : V
  stackAxis : Int

/-- `ndim`, stacking.py:142. -/
def StackView.ndim (v : StackView V) : Nat := v.modShape.length + 1

/-- `StackView.__init__`, stacking.py:135-146. -/
def StackView.make (data : Dict Int (Arr V)) (nmodules : Nat) (modShape : List Nat) (dtype : Nat) (fill : V) (axis : Int) :
    StackView V :=
  ⟨data, nmodules, modShape, dtype, fill, if axis < 0 then axis + (modShape.length + 1 : Nat) else axis⟩

/-- `shape`, stacking.py:147. -/
def StackView.shape (v : StackView V) : R (List Nat) :=
  match pySlice v.modShape none (some v.stackAxis) none with
  | .error e => .error e
  | .ok a =>
    match pySlice v.modShape (some v.stackAxis) none none with
    | .error e => .error e
    | .ok b => .ok (a ++ v.nmodules :: b)

/-- `stack_detector_data(train, data, axis, modules, fillvalue, real_array=False)`, stacking.py:85-126. `conv` converts
the fill value to a dtype. -/
def stackDetectorView (conv : Nat → V) (train : Dict Str (Dict Str (Arr V))) (data : Str) (axis : Int) (modules : Nat) :
    R (StackView V) :=
  if train = [] then .error .value
  else
    match foldE (collectModule data) ⟨[], [], []⟩ train with
    | .error e => .error e
    | .ok c =>
      if c.dtypes.length > 1 then .error .value
      else
        match dropEmpty c.shapes c.mods with
        | .error e => .error e
        | .ok (shapes, mods) =>
          match maxModule mods with
          | .error e => .error e
          | .ok m =>
            if m ≥ modules then .error .index
            else
              match c.dtypes, shapes with
              | dt :: _, sh :: _ => .ok (StackView.make mods modules sh dt (conv dt) axis)
              | _, _ => .error .key

/-! ### The view -/

/-- The position of a module key in an array: `arr[modno]`, for any Python integer. -/
def modPos (modno : Int) (n : Nat) : R Nat :=
  let j := if modno < 0 then modno + n else modno
  if 0 ≤ j ∧ j < n then .ok j.toNat else .error .index

/-- One step of the loop in `asarray`, stacking.py:208-209. Simplification: data of another shape gives ValueError,
while numpy would broadcast some. -/
def StackView.assign (v : StackView V) (g : List Nat → V) (x : Int × Arr V) : R (List Nat → V) :=
  if x.2.shape = v.modShape then
    match modPos x.1 v.nmodules with
    | .error e => .error e
    | .ok m => .ok (assignFirst g m x.2)
  else .error .value

/-- `asarray()`, stacking.py:200-210. -/
def StackView.asArray (v : StackView V) : R (Arr V) :=
  match foldE v.assign (fun _ => v.fill) v.data with
  | .error e => .error e
  | .ok g =>
    match normAxis v.stackAxis v.ndim with
    | .error e => .error e
    | .ok k => .ok ((⟨v.dtype, v.nmodules :: v.modShape, g⟩ : Arr V).moveFirst k)

/-- `stack_detector_data(train, data, axis, modules, fillvalue)`, stacking.py:56-126. -/
def stackDetector (conv : Nat → V) (train : Dict Str (Dict Str (Arr V))) (data : Str) (axis : Int) (modules : Nat) :
    R (Arr V) :=
  match stackDetectorView conv train data axis modules with
  | .error e => .error e
  | .ok v => v.asArray

/-- `_get_single_mod(modno, mod_slices)`, stacking.py:181-191: the result, and the view afterwards. -/
def StackView.getSingle (v : StackView V) (modno : Int) (slices : List Ix) : R (Arr V) × StackView V :=
  match v.data.get? modno with
  | some a => (a.index slices, v)
  | none =>
    if modno ≥ v.nmodules then (.error .index, v)
    else
      let a := Arr.full v.dtype v.modShape v.fill
      (a.index slices, { v with data := v.data.set modno a })

/-- `_get_all_mods(mod_slices)`, stacking.py:193-198. The axis is not handed on to the new view. -/
def StackView.getAll (v : StackView V) (slices : List Ix) : R (StackView V) :=
  match mapE (fun x : Int × Arr V =>
      match x.2.index slices with
      | .error e => .error e
      | .ok a => (.ok (x.1, a) : R (Int × Arr V))) v.data with
  | .error e => .error e
  | .ok [] => .error .index
  | .ok ((m, a) :: rest) => .ok (StackView.make ((m, a) :: rest) v.nmodules a.shape v.dtype v.fill (-3))

/-- What indexing a view gives: an array for one module, a view for all. -/
inductive Item (V : Type) where
  | arr (a : Arr V)
  | view (v : StackView V)

/-- The completed index, stacking.py:156-165. Unlike numpy, a second ellipsis is left in. -/
def StackView.expand (v : StackView V) (ixs : List Ix) : List Ix := expandIx ixs v.ndim

/-- `view[ixs]`, stacking.py:155-179: the result, and the view afterwards. -/
def StackView.getItem (v : StackView V) (ixs : List Ix) : R (Item V) × StackView V :=
  let slices := v.expand ixs
  match pyIndex slices v.stackAxis with
  | .error e => (.error e, v)
  | .ok modno =>
    match pySlice slices none (some v.stackAxis) none, pySlice slices (some (v.stackAxis + 1)) none none with
    | .ok a, .ok b =>
      match modno with
      | .int i =>
        let r := v.getSingle (if i < 0 then i + v.nmodules else i) (a ++ b)
        (match r.1 with | .error e => .error e | .ok x => .ok (.arr x), r.2)
      | x =>
        if x = Ix.full then
          (match v.getAll (a ++ b) with | .error e => .error e | .ok w => .ok (.view w), v)
        else (.error .generic, v)
    | .error e, _ => (.error e, v)
    | _, .error e => (.error e, v)

/-- The view after a history of reads. -/
def StackView.afterReads (v : StackView V) (reads : List (List Ix)) : StackView V :=
  reads.foldl (fun v ixs => (v.getItem ixs).2) v

end KD

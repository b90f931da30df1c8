/-
A client which reads the bytes of a message of protocol version 1.0: msgpack, with dicts of `msgpack_numpy` for arrays and numbers.
-/
import Verif.Model.MsgpackNumpy
import Verif.Spec.Msgpack

namespace KD.Mp.Spec

/-- A value as the client has it. -/
inductive Item where
  | array (type : Str) (shape : List Nat) (elems : List (List UInt8))
  | scalar (type : Str) (b : List UInt8)
  | object (o : Obj)

/-- So many keys and values of any kind. -/
def readFields (fuel : Nat) : Nat → List UInt8 → Option (List (Obj × Obj) × List UInt8)
  | 0, b => some ([], b)
  | n + 1, b =>
    match unpack fuel b with
    | none => none
    | some (k, r) =>
      match unpack fuel r with
      | none => none
      | some (o, r) => (readFields fuel n r).map (fun x => ((k, o) :: x.1, x.2))

/-- Is this key the bytes with this text? -/
def isKey (s : Str) : Obj → Bool
  | .bin b => text b == some s
  | _ => false

/-- The value for a key of bytes. -/
def field (l : List (Obj × Obj)) (s : Str) : Option Obj := (l.find? (fun x => isKey s x.1)).map Prod.snd

/-- `msgpack_numpy.decode`: `size` has the number of bytes of an element for every `dtype.str`. -/
def toItem (size : Str → Nat) (l : List (Obj × Obj)) : Option Item :=
  match field l (ch! "nd"), field l (ch! "type"), field l (ch! "data") with
  | some (.bool true), some (.str t), some (.bin b) =>
    match field l (ch! "kind"), field l (ch! "shape") with
    | some (.bin []), some (.list sh) =>
      match shapeOf sh with
      | none => none
      | some shape => if b.length = shape.prod * size t then some (.array t shape (chunks shape.prod (size t) b)) else none
    | _, _ => none
  | some (.bool false), some (.str t), some (.bin b) => some (.scalar t b)
  | _, _, _ => none

/-- A value: an object, or a dict with keys of bytes which msgpack_numpy reads. -/
def readItem (size : Str → Nat) (fuel : Nat) (b : List UInt8) : Option (Item × List UInt8) :=
  match unpack fuel b with
  | some (o, r) => some (.object o, r)
  | none =>
    match head b with
    | some (.dict n, r) =>
      match readFields fuel n r with
      | none => none
      | some (l, r) => (toItem size l).map (fun i => (i, r))
    | _ => none

/-- So many names with values. -/
def readProps (size : Str → Nat) (fuel : Nat) : Nat → List UInt8 → Option (List (Str × Item) × List UInt8)
  | 0, b => some ([], b)
  | n + 1, b =>
    match unpack fuel b with
    | some (.str k, r) =>
      match readItem size fuel r with
      | none => none
      | some (i, r) => (readProps size fuel n r).map (fun x => ((k, i) :: x.1, x.2))
    | _ => none

/-- So many sources. -/
def readSources (size : Str → Nat) (fuel : Nat) : Nat → List UInt8 → Option (List (Str × List (Str × Item)) × List UInt8)
  | 0, b => some ([], b)
  | n + 1, b =>
    match unpack fuel b with
    | some (.str s, r) =>
      match head r with
      | some (.dict m, r) =>
        match readProps size fuel m r with
        | none => none
        | some (p, r) => (readSources size fuel n r).map (fun x => ((s, p) :: x.1, x.2))
      | _ => none
    | _ => none

/-- A client reading a message: one part, a dict of sources, nothing left. -/
def clientV1 (size : Str → Nat) : List (List UInt8) → Option (List (Str × List (Str × Item)))
  | [b] =>
    match head b with
    | some (.dict n, r) =>
      match readSources size (2 * b.length) n r with
      | some (l, []) => some l
      | _ => none
    | _ => none
  | _ => none

variable {N : Type}

/-- How a value should be seen. -/
def seenV1 (np : NpEnv N) : TVal (List UInt8) N Obj → Item
  | .array a => .array (np.typeStr a.dtype) a.shape a.elems
  | .number n =>
    match np.number n with
    | .float x => .object (.float x)
    | .scalar t b => .scalar t b
  | .dict d => .object (.dict d)
  | .object o => .object o

/-- Arrays have as many elements as their shape says, of the size of their type. -/
def WellSized (np : NpEnv N) (size : Str → Nat) (data : TData (List UInt8) N Obj) : Prop :=
  ∀ s props k a, (s, props) ∈ data → (k, .array a) ∈ props →
    a.elems.length = a.shape.prod ∧ ∀ e ∈ a.elems, e.length = size (np.typeStr a.dtype)

/-- A value is small enough for msgpack. Arrays must have less than 2³² bytes. -/
def SmallValue (np : NpEnv N) : TVal (List UInt8) N Obj → Prop
  | .array a => Short (np.typeStr a.dtype) ∧ a.shape.length < 4294967296 ∧ (∀ n ∈ a.shape, n < 18446744073709551616) ∧
      a.elems.flatten.length < 4294967296
  | .number n =>
    match np.number n with
    | .float _ => True
    | .scalar t b => Short t ∧ b.length < 4294967296
  | .dict d => (Obj.dict d).fits = true ∧ (Obj.dict d).depth ≤ 509
  | .object o => o.fits = true ∧ o.depth ≤ 509

/-- All data are small enough for msgpack. -/
def SmallData (np : NpEnv N) (data : TData (List UInt8) N Obj) : Prop :=
  data.length < 4294967296 ∧ ∀ s props, (s, props) ∈ data → Short s ∧ props.length < 4294967296 ∧
    ∀ k v, (k, v) ∈ props → Short k ∧ SmallValue np v

end KD.Mp.Spec

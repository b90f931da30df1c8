/-
A client which reads the bytes of messages: unpacking as the msgpack specification says, and the karabo_bridge protocol 2.2.
-/
import Verif.Model.Msgpack
import Verif.Spec.Stream

namespace KD.Mp.Spec

/-- The number which these bytes are, the high byte first. -/
def number (b : List UInt8) : Nat := b.foldl (fun n c => n * 256 + c.toNat) 0

/-- The first `k` bytes and the rest. -/
def takeBytes (k : Nat) (b : List UInt8) : Option (List UInt8 × List UInt8) := if k ≤ b.length then some (b.take k, b.drop k) else none

/-- A number of `k` bytes and the rest. -/
def takeNumber (k : Nat) (b : List UInt8) : Option (Nat × List UInt8) := (takeBytes k b).map (fun x => (number x.1, x.2))

/-- A number of `k` bytes which may be negative. -/
def signed (k n : Nat) : Int := if n < 256 ^ k / 2 then n else n - 256 ^ k

/-- What comes first: a whole object, or the length of a str, bytes, list or dict. -/
inductive Head where
  | obj (o : Obj)
  | str (n : Nat)
  | bin (n : Nat)
  | list (n : Nat)
  | dict (n : Nat)

/-- The formats of the msgpack specification. -/
def head : List UInt8 → Option (Head × List UInt8)
  | [] => none
  | c :: b =>
    let n := c.toNat
    let num (k : Nat) (f : Nat → Head) := (takeNumber k b).map (fun x => (f x.1, x.2))
    if n < 0x80 then some (.obj (.int n), b)
    else if n < 0x90 then some (.dict (n - 0x80), b)
    else if n < 0xa0 then some (.list (n - 0x90), b)
    else if n < 0xc0 then some (.str (n - 0xa0), b)
    else if 0xe0 ≤ n then some (.obj (.int (n - 256 : Int)), b)
    else match n with
      | 0xc0 => some (.obj .none, b)
      | 0xc2 => some (.obj (.bool false), b)
      | 0xc3 => some (.obj (.bool true), b)
      | 0xc4 => num 1 .bin
      | 0xc5 => num 2 .bin
      | 0xc6 => num 4 .bin
      | 0xcb => num 8 (fun m => .obj (.float (UInt64.ofNat m)))
      | 0xcc => num 1 (fun m => .obj (.int m))
      | 0xcd => num 2 (fun m => .obj (.int m))
      | 0xce => num 4 (fun m => .obj (.int m))
      | 0xcf => num 8 (fun m => .obj (.int m))
      | 0xd0 => num 1 (fun m => .obj (.int (signed 1 m)))
      | 0xd1 => num 2 (fun m => .obj (.int (signed 2 m)))
      | 0xd2 => num 4 (fun m => .obj (.int (signed 4 m)))
      | 0xd3 => num 8 (fun m => .obj (.int (signed 8 m)))
      | 0xd9 => num 1 .str
      | 0xda => num 2 .str
      | 0xdb => num 4 .str
      | 0xdc => num 2 .list
      | 0xdd => num 4 .list
      | 0xde => num 2 .dict
      | 0xdf => num 4 .dict
      | _ => none

/-- The string with these bytes. -/
def text (b : List UInt8) : Option Str := b.toByteArray.utf8Decode?.map Array.toList

mutual
/-- One object and the rest; at most `fuel` steps. -/
def unpack : Nat → List UInt8 → Option (Obj × List UInt8)
  | 0, _ => none
  | fuel + 1, b =>
    match head b with
    | none => none
    | some (.obj o, r) => some (o, r)
    | some (.str n, r) =>
      match takeBytes n r with
      | none => none
      | some (x, r) => (text x).map (fun s => (.str s, r))
    | some (.bin n, r) => (takeBytes n r).map (fun x => (.bin x.1, x.2))
    | some (.list n, r) => (unpackList fuel n r).map (fun x => (.list x.1, x.2))
    | some (.dict n, r) => (unpackDict fuel n r).map (fun x => (.dict x.1, x.2))
/-- So many objects. -/
def unpackList : Nat → Nat → List UInt8 → Option (List Obj × List UInt8)
  | _, 0, b => some ([], b)
  | 0, _, _ => none
  | fuel + 1, n + 1, b =>
    match unpack fuel b with
    | none => none
    | some (o, r) => (unpackList fuel n r).map (fun x => (o :: x.1, x.2))
/-- So many strings with objects. -/
def unpackDict : Nat → Nat → List UInt8 → Option (List (Str × Obj) × List UInt8)
  | _, 0, b => some ([], b)
  | 0, _, _ => none
  | fuel + 1, n + 1, b =>
    match unpack fuel b with
    | some (.str k, r) =>
      match unpack fuel r with
      | none => none
      | some (o, r) => (unpackDict fuel n r).map (fun x => ((k, o) :: x.1, x.2))
    | _ => none
end

/-- The object which these bytes are: nothing may be left. -/
def unpackb (b : List UInt8) : Option Obj :=
  match unpack (2 * b.length) b with
  | some (o, []) => some o
  | _ => none

/-- The elements of an array of `n` elements of `k` bytes. -/
def chunks : Nat → Nat → List UInt8 → List (List UInt8)
  | 0, _, _ => []
  | n + 1, k, b => b.take k :: chunks n k (b.drop k)

/-- The shape in a header. -/
def shapeOf : List Obj → Option (List Nat)
  | [] => some []
  | .int z :: l => if 0 ≤ z then (shapeOf l).map (z.toNat :: ·) else none
  | _ :: _ => none

/-- What a client has after reading a message. -/
abbrev Got := KD.Spec.Got (List UInt8) Obj

/-- What a header says. -/
inductive Says where
  | data (source : Str) (metadata : List (Str × Obj))
  | array (source path dtype : Str) (shape : List Nat)

/-- Reading a header. -/
def header (b : List UInt8) : Option Says :=
  match unpackb b with
  | some (.dict h) =>
    match Dict.get? h (ch! "content"), Dict.get? h (ch! "source") with
    | some (.str c), some (.str s) =>
      if c = ch! "msgpack" then
        match Dict.get? h (ch! "metadata") with
        | some (.dict m) => some (.data s m)
        | _ => none
      else if c = ch! "array" then
        match Dict.get? h (ch! "path"), Dict.get? h (ch! "dtype"), Dict.get? h (ch! "shape") with
        | some (.str p), some (.str t), some (.list l) => (shapeOf l).map (.array s p t)
        | _, _, _ => none
      else none
    | _, _ => none
  | _ => none

/-- The karabo_bridge client for protocol 2.2, on bytes: pairs of header and content. `size` has the size of an element for every
dtype. -/
def decode (size : Str → Nat) : Got → List (List UInt8) → Option Got
  | g, [] => some g
  | _, [_] => none
  | g, h :: c :: rest =>
    match header h with
    | none => none
    | some (.data s m) =>
      match unpackb c with
      | some (.dict d) => decode size ⟨g.data.set s (d.map (fun x => (x.1, .object x.2))), g.metadata.set s m⟩ rest
      | _ => none
    | some (.array s p t sh) =>
      match g.data.get? s with
      | none => none
      | some d =>
        if c.length = sh.prod * size t then
          decode size ⟨g.data.set s (d.set p (.array t sh (chunks sh.prod (size t) c))), g.metadata⟩ rest
        else none

/-- Reading a message. -/
def client (size : Str → Nat) (msg : List (List UInt8)) : Option Got := decode size ⟨[], []⟩ msg

variable {N : Type}

/-- How a value should be seen: numbers as Python numbers, the rest as it is. -/
def seen (env : PyEnv N Obj) : TVal (List UInt8) N Obj → KD.Spec.Seen (List UInt8) Obj
  | .array a => .array a.dtype a.shape a.elems
  | .number n => .object (env.item n)
  | .dict d => .object (.dict d)
  | .object o => .object o

/-- The elements of arrays have the size which the dtype says. -/
def Sized (size : Str → Nat) (data : TData (List UInt8) N Obj) : Prop :=
  ∀ s props k a, (s, props) ∈ data → (k, .array a) ∈ props → ∀ e ∈ a.elems, e.length = size a.dtype

/-- msgpack can write the length of this string. -/
def Short (s : Str) : Prop := (utf8 s).length < 4294967296

/-- msgpack can pack this as a value of a dict: it fits, and is not nested too deep. -/
def Fits (o : Obj) : Prop := o.fits = true ∧ o.depth ≤ 510

/-- Everything is small enough for msgpack: less than 2³² bytes in every string, less than 2³² values in every dict, numbers of 64 bits, and
not too many lists and dicts around an object. -/
structure Small (env : PyEnv N Obj) (data : TData (List UInt8) N Obj) (metadata : TMeta Obj) : Prop where
  sources : ∀ s props, (s, props) ∈ data → Short s ∧ props.length < 4294967296
  metadata : ∀ s ∈ data.keys, ∀ m, KD.Spec.givenMeta data metadata s = some m → Fits (.dict m)
  values : ∀ s props k v, (s, props) ∈ data → (k, v) ∈ props → Short k ∧
    match v with
    | .array a => Short a.dtype ∧ a.shape.length < 4294967296 ∧ ∀ n ∈ a.shape, n < 18446744073709551616
    | .number n => Fits (env.item n)
    | .dict d => Fits (.dict d)
    | .object o => Fits o

end KD.Mp.Spec

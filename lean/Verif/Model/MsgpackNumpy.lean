/-
The bytes of the messages of ZMQStreamer with protocol version 1.0, /repo/karabo_data/export.py:95-100 and 138-139:
`msgpack.Packer(use_bin_type=True, default=msgpack_numpy.encode)`. `Model.Stream` has the one part of such a message.
-/
import Verif.Model.Msgpack

namespace KD.Mp

variable {N : Type}

/-- A numpy number for msgpack: `np.float64` is a Python float; msgpack_numpy packs others with `dtype.str` and their bytes. -/
inductive Num where
  | float (bits : UInt64)
  | scalar (type : Str) (b : List UInt8)

/-- What is used of numpy: `dtype.str` for the name of a dtype, and numbers. -/
structure NpEnv (N : Type) where
  typeStr : Str → Str
  number : N → Num

/-- The keys and values of a dict, one after another. -/
def packFields : List (Obj × Obj) → List UInt8
  | [] => []
  | (k, o) :: l => pack k ++ (pack o ++ packFields l)

/-- A key such as `b'nd'`. -/
def binKey (s : Str) : Obj := .bin (utf8 s)

/-- The dict from `msgpack_numpy.encode(array)`: `{b'nd': True, b'type': dtype.str, b'kind': b'', b'shape': shape, b'data': bytes}`.
The bytes are those of the elements in C order, also for arrays which are not contiguous. Simplification: no structured arrays. -/
def arrayFields (np : NpEnv N) (a : NpArr (List UInt8)) : List (Obj × Obj) :=
  [(binKey (ch! "nd"), .bool true), (binKey (ch! "type"), .str (np.typeStr a.dtype)), (binKey (ch! "kind"), .bin []),
   (binKey (ch! "shape"), .list (a.shape.map (fun n : Nat => .int n))), (binKey (ch! "data"), .bin a.elems.flatten)]

/-- The dict from `msgpack_numpy.encode(number)`: `{b'nd': False, b'type': dtype.str, b'data': bytes}`. -/
def scalarFields (type : Str) (b : List UInt8) : List (Obj × Obj) :=
  [(binKey (ch! "nd"), .bool false), (binKey (ch! "type"), .str type), (binKey (ch! "data"), .bin b)]

/-- A dict. -/
def packKeyed (l : List (Obj × Obj)) : List UInt8 := dictHead l.length ++ packFields l

/-- A value of the data. -/
def valueBytes (np : NpEnv N) : TVal (List UInt8) N Obj → List UInt8
  | .array a => packKeyed (arrayFields np a)
  | .number n =>
    match np.number n with
    | .float x => pack (.float x)
    | .scalar t b => packKeyed (scalarFields t b)
  | .dict d => pack (.dict d)
  | .object o => pack o

/-- msgpack can pack these keys and values. -/
def fieldsFit (l : List (Obj × Obj)) : Bool := l.all (fun x => x.1.fits && x.2.fits)

/-- msgpack can pack this value: it is in two dicts, so it may have 509 more around an object. -/
def valueFits (np : NpEnv N) : TVal (List UInt8) N Obj → Bool
  | .array a => fieldsFit (arrayFields np a)
  | .number n =>
    match np.number n with
    | .float _ => true
    | .scalar t b => fieldsFit (scalarFields t b)
  | .dict d => (Obj.dict d).fits && decide ((Obj.dict d).depth ≤ 509)
  | .object o => o.fits && decide (o.depth ≤ 509)

/-- The names and values of a source. -/
def propsBytes (np : NpEnv N) : List (Str × TVal (List UInt8) N Obj) → List UInt8
  | [] => []
  | (k, v) :: l => strBytes k ++ (valueBytes np v ++ propsBytes np l)

/-- The sources. -/
def sourcesBytes (np : NpEnv N) : List (Str × List (Str × TVal (List UInt8) N Obj)) → List UInt8
  | [] => []
  | (s, p) :: l => strBytes s ++ (dictHead p.length ++ (propsBytes np p ++ sourcesBytes np l))

/-- msgpack can pack a source. -/
def sourceFits (np : NpEnv N) (x : Str × List (Str × TVal (List UInt8) N Obj)) : Bool :=
  decide ((utf8 x.1).length < 4294967296) && decide (x.2.length < 4294967296) &&
    x.2.all (fun y => decide ((utf8 y.1).length < 4294967296) && valueFits np y.2)

/-- `self.pack(data)` at export.py:139, with its exceptions (simplification: one kind). -/
def wholeBytes (np : NpEnv N) (data : TData (List UInt8) N Obj) : R (List UInt8) :=
  if decide (data.length < 4294967296) && data.all (sourceFits np) then .ok (dictHead data.length ++ sourcesBytes np data)
  else .error .value

/-- The bytes of the part of a message of version 1.0. -/
def partBytesV1 (np : NpEnv N) : Part (List UInt8) N Obj → R (List UInt8)
  | .whole d => wholeBytes np d
  | _ => .error .type

/-- `_serialize(data, metadata)` with protocol version 1.0, export.py:121-139: the bytes of the message. -/
def serializeBytesV1 (env : PyEnv N Obj) (np : NpEnv N) (dummy : Bool) (data : TData (List UInt8) N Obj) (metadata : TMeta Obj) :
    R (List (List UInt8)) :=
  match serialize env true dummy data metadata with
  | .error e => .error e
  | .ok out => mapE (partBytesV1 np) out.msg

end KD.Mp

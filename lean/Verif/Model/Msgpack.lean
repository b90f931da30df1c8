/-
The bytes of the messages of ZMQStreamer, /repo/karabo_data/export.py:93-173 with protocol version 2.2: `msgpack.Packer` as documented
in the msgpack specification. `Model.Stream` has the parts of a message; here are their bytes.
-/
import Verif.Model.Stream

namespace KD.Mp

/-- Python objects which msgpack knows. Floats are given by the bits of the double. Simplification: keys of dicts are strings. -/
inductive Obj where
  | none
  | bool (b : Bool)
  | int (z : Int)
  | float (bits : UInt64)
  | str (s : Str)
  | bin (b : List UInt8)
  | list (l : List Obj)
  | dict (d : List (Str × Obj))

/-- A number as `k` bytes, the high byte first. -/
def be : Nat → Nat → List UInt8
  | 0, _ => []
  | k + 1, n => be k (n / 256) ++ [UInt8.ofNat n]

/-- A byte, then a number as `k` bytes. -/
def code (c k n : Nat) : List UInt8 := UInt8.ofNat c :: be k n

/-- How msgpack packs an int. -/
def intBytes (z : Int) : List UInt8 :=
  if 0 ≤ z then
    if z < 128 then [UInt8.ofNat z.toNat]
    else if z < 256 then code 0xcc 1 z.toNat
    else if z < 65536 then code 0xcd 2 z.toNat
    else if z < 4294967296 then code 0xce 4 z.toNat
    else code 0xcf 8 z.toNat
  else if -32 ≤ z then [UInt8.ofNat (z + 256).toNat]
  else if -128 ≤ z then code 0xd0 1 (z + 256).toNat
  else if -32768 ≤ z then code 0xd1 2 (z + 65536).toNat
  else if -2147483648 ≤ z then code 0xd2 4 (z + 4294967296).toNat
  else code 0xd3 8 (z + 18446744073709551616).toNat

/-- What comes before the bytes of a str of this length. -/
def strHead (n : Nat) : List UInt8 :=
  if n < 32 then [UInt8.ofNat (0xa0 + n)] else if n < 256 then code 0xd9 1 n else if n < 65536 then code 0xda 2 n else code 0xdb 4 n

/-- What comes before the bytes of a bytes object of this length, with `use_bin_type=True`. -/
def binHead (n : Nat) : List UInt8 := if n < 256 then code 0xc4 1 n else if n < 65536 then code 0xc5 2 n else code 0xc6 4 n

/-- What comes before the items of a list or tuple of this length. -/
def listHead (n : Nat) : List UInt8 := if n < 16 then [UInt8.ofNat (0x90 + n)] else if n < 65536 then code 0xdc 2 n else code 0xdd 4 n

/-- What comes before the keys and values of a dict of this length. -/
def dictHead (n : Nat) : List UInt8 := if n < 16 then [UInt8.ofNat (0x80 + n)] else if n < 65536 then code 0xde 2 n else code 0xdf 4 n

/-- The bytes of a string, in UTF-8. -/
def utf8 (s : Str) : List UInt8 := s.flatMap String.utf8EncodeChar

/-- How msgpack packs a str. -/
def strBytes (s : Str) : List UInt8 := strHead (utf8 s).length ++ utf8 s

mutual
/-- `self.pack(obj)`, export.py:104, 139, 155-169. -/
def pack : Obj → List UInt8
  | .none => [0xc0]
  | .bool b => [if b then 0xc3 else 0xc2]
  | .int z => intBytes z
  | .float x => code 0xcb 8 x.toNat
  | .str s => strBytes s
  | .bin b => binHead b.length ++ b
  | .list l => listHead l.length ++ packList l
  | .dict d => dictHead d.length ++ packDict d
/-- The items of a list in `self.pack(obj)`, export.py:104, 139, 155-169. -/
def packList : List Obj → List UInt8
  | [] => []
  | o :: l => pack o ++ packList l
/-- The keys and values of a dict in `self.pack(obj)`, export.py:104, 139, 155-169. -/
def packDict : List (Str × Obj) → List UInt8
  | [] => []
  | (k, o) :: d => strBytes k ++ (pack o ++ packDict d)
end

mutual
/-- msgpack packs ints of 64 bits, and lengths up to 2³²-1; for others it raises an exception. -/
def Obj.fits : Obj → Bool
  | .int z => -9223372036854775808 ≤ z && z < 18446744073709551616
  | .str s => (utf8 s).length < 4294967296
  | .bin b => b.length < 4294967296
  | .list l => l.length < 4294967296 && fitsList l
  | .dict d => d.length < 4294967296 && fitsDict d
  | _ => true
/-- `Obj.fits` for the items of a list. -/
def fitsList : List Obj → Bool
  | [] => true
  | o :: l => o.fits && fitsList l
/-- `Obj.fits` for the keys and values of a dict. -/
def fitsDict : List (Str × Obj) → Bool
  | [] => true
  | (k, o) :: d => (utf8 k).length < 4294967296 && o.fits && fitsDict d
end

mutual
/-- How deep objects are nested: how many lists and dicts are around the innermost object. -/
def Obj.depth : Obj → Nat
  | .list l => depthList l
  | .dict d => depthDict d
  | _ => 0
/-- `Obj.depth` for the items of a list. -/
def depthList : List Obj → Nat
  | [] => 0
  | o :: l => max (o.depth + 1) (depthList l)
/-- `Obj.depth` for the values of a dict. -/
def depthDict : List (Str × Obj) → Nat
  | [] => 0
  | (_, o) :: d => max (o.depth + 1) (depthDict d)
end

/-- `self.pack(obj)` with its exceptions: OverflowError and ValueError (simplification: one kind). msgpack refuses objects inside more than
511 lists and dicts. -/
def packb (o : Obj) : R (List UInt8) := if o.fits && decide (o.depth ≤ 511) then .ok (pack o) else .error .value

variable {N : Type}

/-- What is packed for a value of `main_data`, export.py:143-152. -/
def mainObj : Packed Obj → Obj
  | .obj o => o
  | .dict d => .dict d

/-- The bytes of a part of a message, export.py:154-171. An element of an array is given by its bytes. Only protocol version 2.2: `MsgpackNumpy`
has version 1.0. -/
def partBytes : Part (List UInt8) N Obj → R (List UInt8)
  | .header src m => packb (.dict [(ch! "source", .str src), (ch! "content", .str (ch! "msgpack")), (ch! "metadata", .dict m)])
  | .main d => packb (.dict (d.map (fun x => (x.1, mainObj x.2))))
  | .arrayHeader src key dtype shape =>
    packb (.dict [(ch! "source", .str src), (ch! "content", .str (ch! "array")), (ch! "path", .str key), (ch! "dtype", .str dtype),
      (ch! "shape", .list (shape.map (fun n : Nat => .int n)))])
  | .bytes b => .ok b.flatten
  | .whole _ => .error .type

/-- `_serialize(data, metadata)`, export.py:121-173: the bytes of the parts. -/
def serializeBytes (env : PyEnv N Obj) (dummy : Bool) (data : TData (List UInt8) N Obj) (metadata : TMeta Obj) : R (List (List UInt8)) :=
  match serialize env false dummy data metadata with
  | .error e => .error e
  | .ok out => mapE partBytes out.msg

end KD.Mp

/-
Streaming: karabo_data/export.py (all of it), as a state machine for the threads and functions for the messages.

Simplifications: ZeroMQ is a REP socket per interface which takes requests in any order, keeps the replies it was given
until they are transmitted, in any order, and forgets them when closed (LINGER is 0). There are no errors in the network
apart from lost requests and replies, and the thread is not killed.
-/
import Verif.Model.Collection

namespace KD

/-! ### The threads -/

/-- Where the thread of a `REPInterface` is, export.py:36-48. -/
inductive Pc (M : Type) where
  | bind                              -- before `interface.bind`, line 39
  | check                             -- at `while not self.stopped()`, line 41
  | recv                              -- in `interface.recv()`, line 42
  | handle (client : Nat) (req : Str) -- at `if req != b'next'`, line 43
  | get (client : Nat)                -- in `self.buffer.get()`, line 45
  | send (client : Nat) (m : M)       -- before `interface.send_multipart`, line 45
  | closing                           -- in the `finally` clause, lines 46-48
  | done
  deriving DecidableEq, Repr

/-- A `REPInterface`, export.py:28-54: the thread, its stop event, and the replies in its socket. -/
structure Iface (M : Type) where
  pc : Pc M
  stopped : Bool
  out : List (Nat × M)
  deriving DecidableEq, Repr

/-- A `ZMQStreamer` (export.py:57-216) with its threads and clients, and what has happened so far. -/
structure Streamer (M : Type) where
  /-- `maxsize` of the queue, export.py:105 -/
  maxlen : Int
  /-- the queue `self._buffer` -/
  buffer : List M
  /-- the interfaces made by `start()`, oldest first -/
  ifaces : List (Iface M)
  /-- `self._interface` -/
  current : Option Nat
  /-- the thread which called `stop()` is in `join()`, line 118 -/
  joining : Bool
  /-- the calls of `feed()` which are in `put()`, line 216 -/
  waiting : List M
  /-- requests of clients not received yet -/
  requests : List (Nat × Str)
  /-- history: calls of `feed()` -/
  offered : List M
  /-- history: calls of `feed()` which have returned -/
  fed : List M
  /-- history: what was taken out of the queue -/
  taken : List M
  /-- history: requests made -/
  asked : List (Nat × Str)
  /-- history: replies sent -/
  sent : List (Nat × M)
  /-- history: replies which have reached their client -/
  received : List (Nat × M)
  deriving DecidableEq, Repr

/-- A new streamer, export.py:90-106. -/
def Streamer.new (M : Type) (maxlen : Int) : Streamer M :=
  ⟨maxlen, [], [], none, false, [], [], [], [], [], [], [], []⟩

/-- One step of one of the threads, of a client or of the network. The first argument of the steps of interfaces is the
position of the interface. -/
inductive Act (M : Type) where
  | start | stop | joined
  | feed (m : M) | put (i : Nat)
  | request (client : Nat) (req : Str) | lose (i : Nat)
  | bind (j : Nat) | check (j : Nat) | recv (j i : Nat) | handle (j : Nat) | get (j : Nat) | send (j : Nat) | close (j : Nat)
  | deliver (j i : Nat)
  deriving DecidableEq, Repr

/-- Does the interface have the port? -/
def Iface.active {M : Type} (t : Iface M) : Bool :=
  match t.pc with
  | .bind => false
  | .done => false
  | _ => true

/-- Replace an interface. -/
def Streamer.setIface {M : Type} (s : Streamer M) (j : Nat) (t : Iface M) : Streamer M := { s with ifaces := s.ifaces.set j t }

/-- Is there room in the queue? `queue.Queue` has no limit if `maxsize` is 0 or negative. -/
def Streamer.room {M : Type} (s : Streamer M) : Bool := decide (s.maxlen ≤ 0) || decide ((s.buffer.length : Int) < s.maxlen)

/-- `start()`, export.py:108-113. -/
def Streamer.start {M : Type} (s : Streamer M) : Option (Streamer M) :=
  if s.joining then none
  else some { s with ifaces := s.ifaces ++ [⟨.bind, false, []⟩], current := some s.ifaces.length }

/-- `stop()` up to `join()`, export.py:115-118. -/
def Streamer.stop {M : Type} (s : Streamer M) : Option (Streamer M) :=
  if s.joining then none
  else
    match s.current with
    | none => some s
    | some j =>
      match s.ifaces[j]? with
      | none => none
      | some t => some { s.setIface j { t with stopped := true } with joining := true }

/-- The return of `join()`, and the rest of `stop()`, export.py:118-119. -/
def Streamer.joined {M : Type} (s : Streamer M) : Option (Streamer M) :=
  if s.joining then
    match s.current with
    | none => none
    | some j =>
      match s.ifaces[j]? with
      | none => none
      | some t =>
        match t.pc with
        | .done => some { s with joining := false, current := none }
        | _ => none
  else none

/-- The return of a `put()`, export.py:216. -/
def Streamer.put {M : Type} (s : Streamer M) (i : Nat) : Option (Streamer M) :=
  match s.waiting[i]? with
  | none => none
  | some m =>
    if s.room then
      some { s with waiting := s.waiting.eraseIdx i, buffer := s.buffer ++ [m], fed := s.fed ++ [m] }
    else none

/-- A step of the thread of an interface, export.py:36-48, apart from `recv()`. -/
def Streamer.threadStep {M : Type} (s : Streamer M) (j : Nat) (t : Iface M) : Option (Streamer M) :=
  match t.pc with
  | .bind =>
    -- the port is in use: ZMQError
    if s.ifaces.any Iface.active then some (s.setIface j { t with pc := .done })
    else some (s.setIface j { t with pc := .check })
  | .check => some (s.setIface j { t with pc := if t.stopped then .closing else .recv })
  | .recv => none
  | .handle c r => some (s.setIface j { t with pc := if r ≠ ch! "next" then .closing else .get c })
  | .get c =>
    match s.buffer with
    | [] => none
    | m :: rest => some { s.setIface j { t with pc := .send c m } with buffer := rest, taken := s.taken ++ [m] }
  | .send c m => some { s.setIface j { t with pc := .check, out := t.out ++ [(c, m)] } with sent := s.sent ++ [(c, m)] }
  | .closing => some (s.setIface j { t with pc := .done, out := [] })
  | .done => none

/-- The name of the next step of a thread. -/
def Pc.act {M : Type} (j : Nat) : Pc M → Option (Act M)
  | .bind => some (.bind j)
  | .check => some (.check j)
  | .recv => none
  | .handle _ _ => some (.handle j)
  | .get _ => some (.get j)
  | .send _ _ => some (.send j)
  | .closing => some (.close j)
  | .done => none

/-- A step of a thread, if this is the next one. -/
def Streamer.named {M : Type} [DecidableEq M] (s : Streamer M) (j : Nat) (a : Act M) : Option (Streamer M) :=
  match s.ifaces[j]? with
  | none => none
  | some t => if t.pc.act j = some a then s.threadStep j t else none

/-- `interface.recv()`, export.py:42. -/
def Streamer.recv {M : Type} (s : Streamer M) (j i : Nat) : Option (Streamer M) :=
  match s.ifaces[j]?, s.requests[i]? with
  | some t, some (c, r) =>
    match t.pc with
    | .recv => some { s.setIface j { t with pc := .handle c r } with requests := s.requests.eraseIdx i }
    | _ => none
  | _, _ => none

/-- A reply is transmitted to the client. -/
def Streamer.deliver {M : Type} (s : Streamer M) (j i : Nat) : Option (Streamer M) :=
  match s.ifaces[j]? with
  | none => none
  | some t =>
    match t.out[i]? with
    | none => none
    | some x => some { s.setIface j { t with out := t.out.eraseIdx i } with received := s.received ++ [x] }

/-- One step; `none` if it is not possible. -/
def Streamer.step {M : Type} [DecidableEq M] (s : Streamer M) : Act M → Option (Streamer M)
  | .start => s.start
  | .stop => s.stop
  | .joined => s.joined
  | .feed m => some { s with waiting := s.waiting ++ [m], offered := s.offered ++ [m] }
  | .put i => s.put i
  | .request c r => some { s with requests := s.requests ++ [(c, r)], asked := s.asked ++ [(c, r)] }
  | .lose i => if i < s.requests.length then some { s with requests := s.requests.eraseIdx i } else none
  | .bind j => s.named j (.bind j)
  | .check j => s.named j (.check j)
  | .recv j i => s.recv j i
  | .handle j => s.named j (.handle j)
  | .get j => s.named j (.get j)
  | .send j => s.named j (.send j)
  | .close j => s.named j (.close j)
  | .deliver j i => s.deliver j i

/-- Steps one after the other. -/
def Streamer.run {M : Type} [DecidableEq M] (s : Streamer M) : List (Act M) → Option (Streamer M)
  | [] => some s
  | a :: l =>
    match s.step a with
    | none => none
    | some s' => s'.run l

/-! ### The messages -/

/-- A numpy array: the elements in C order, and whether they are contiguous in memory in this order. -/
structure NpArr (E : Type) where
  dtype : Str
  shape : List Nat
  contiguous : Bool
  elems : List E
  deriving DecidableEq, Repr

/-- A value in the data of a train: a numpy array, a numpy number, a dict like `metadata`, or another object. `N` and `O`
are the numpy numbers and the Python objects. -/
inductive TVal (E N O : Type) where
  | array (a : NpArr E)
  | number (n : N)
  | dict (d : Dict Str O)
  | object (o : O)
  deriving DecidableEq, Repr

/-- What msgpack has in the data part: objects and dicts. -/
inductive Packed (O : Type) where
  | obj (o : O)
  | dict (d : Dict Str O)
  deriving DecidableEq, Repr

/-- The data of a train, `data` of `feed`, export.py:175-216. -/
abbrev TData (E N O : Type) := Dict Str (Dict Str (TVal E N O))
/-- The metadata of a train, `metadata` of `feed`, export.py:175-216. -/
abbrev TMeta (O : Type) := Dict Str (Dict Str O)

/-- A part of a message: what was packed (the bytes are in `Model.Msgpack`), or the contents of an array. `header` is for
content 'msgpack', `arrayHeader` for content 'array'. -/
inductive Part (E N O : Type) where
  | header (source : Str) (metadata : Dict Str O)
  | main (d : Dict Str (Packed O))
  | arrayHeader (source path dtype : Str) (shape : List Nat)
  | bytes (elems : List E)
  | whole (d : TData E N O)
  deriving DecidableEq, Repr

/-- Python and msgpack: `item` is `value.item()`; `packable` says whether msgpack knows the object; `str` makes a string
object; `now` is the result of `time()`, `nowStr` its text. -/
structure PyEnv (N O : Type) where
  item : N → O
  packable : O → Bool
  str : Str → O
  now : O
  nowStr : Str

variable {E N O : Type}

/-- `frac.ljust(18, '0')`, export.py:128. -/
def ljust18 (s : Str) : Str := s ++ List.replicate (18 - s.length) '0'

/-- `update_dummy`, export.py:126-133. -/
def dummyStamps (env : PyEnv N O) : R (Dict Str O) :=
  match splitCh '.' env.nowStr with
  | [sec, frac] =>
    .ok [(ch! "timestamp", env.now), (ch! "timestamp.sec", env.str sec), (ch! "timestamp.frac", env.str (ljust18 frac))]
  | _ => .error .value

/-- `v.get('metadata', {})`, export.py:123. Simplification: TypeError if it is not a dict; the code raises this only with
dummy timestamps. -/
def metaOf (props : Dict Str (TVal E N O)) : R (Dict Str O) :=
  match props.get? (ch! "metadata") with
  | none => .ok []
  | some (.dict d) => .ok d
  | some _ => .error .type

/-- One item of line 123. -/
def metaItem (x : Str × Dict Str (TVal E N O)) : R (Str × Dict Str O) :=
  match metaOf x.2 with
  | .error e => .error e
  | .ok m => .ok (x.1, m)

/-- Lines 135-136 for one source. -/
def addStamps (stamps : Dict Str O) (m : Dict Str O) : Dict Str O :=
  if (m.get? (ch! "timestamp")).isSome then m else m.update stamps

/-- Lines 135-136: the metadata of one source is changed in place; KeyError without. -/
def stampSource (stamps : Dict Str O) (md : TMeta O) (src : Str) : R (TMeta O) :=
  match md.get? src with
  | none => .error .key
  | some m => .ok (md.set src (addStamps stamps m))

/-- The data after lines 134-136 if the metadata are taken from it: the dicts are the same objects. -/
def writeBack (md : TMeta O) (x : Str × Dict Str (TVal E N O)) : Str × Dict Str (TVal E N O) :=
  match x.2.get? (ch! "metadata"), md.get? x.1 with
  | some (.dict _), some m => (x.1, x.2.set (ch! "metadata") (.dict m))
  | _, _ => x

/-- `main_data` and `arrays` of one source, export.py:143-152. -/
def splitProps (env : PyEnv N O) : Dict Str (TVal E N O) → Dict Str (Packed O) × List (Str × NpArr E)
  | [] => ([], [])
  | (k, v) :: rest =>
    let r := splitProps env rest
    match v with
    | .array a => (r.1, (k, a) :: r.2)
    | .number n => ((k, .obj (env.item n)) :: r.1, r.2)
    | .dict d => ((k, .dict d) :: r.1, r.2)
    | .object o => ((k, .obj o) :: r.1, r.2)

/-- Can msgpack pack this? -/
def packableDict (env : PyEnv N O) (d : Dict Str O) : Bool := d.all (fun x => env.packable x.2)

/-- Can msgpack pack this? -/
def Packed.ok (env : PyEnv N O) : Packed O → Bool
  | .obj o => env.packable o
  | .dict d => packableDict env d

/-- `np.ascontiguousarray(array)`. -/
def NpArr.asContiguous (a : NpArr E) : NpArr E := { a with contiguous := true }

/-- `array.data`, as bytes: only for contiguous arrays. -/
def NpArr.buffer (a : NpArr E) : R (List E) := if a.contiguous then .ok a.elems else .error .value

/-- The parts for one array, export.py:162-171. -/
def arrayParts (src : Str) (x : Str × NpArr E) : R (List (Part E N O)) :=
  let a := if x.2.contiguous then x.2 else x.2.asContiguous
  match a.buffer with
  | .error e => .error e
  | .ok b => .ok [.arrayHeader src x.1 a.dtype a.shape, .bytes b]

/-- The parts for one source, export.py:142-171. -/
def sourceParts (env : PyEnv N O) (md : TMeta O) (x : Str × Dict Str (TVal E N O)) : R (List (Part E N O)) :=
  match md.get? x.1 with
  | none => .error .key
  | some m =>
    let r := splitProps env x.2
    if packableDict env m && r.1.all (fun y => y.2.ok env) then
      match mapE (arrayParts x.1) r.2 with
      | .error e => .error e
      | .ok l => .ok (.header x.1 m :: .main r.1 :: l.flatten)
    else .error .type

/-- Can msgpack with msgpack_numpy pack this? -/
def TVal.ok (env : PyEnv N O) : TVal E N O → Bool
  | .array _ => true
  | .number _ => true
  | .dict d => packableDict env d
  | .object o => env.packable o

/-- `sorted(data.items())`, export.py:142: names of sources are distinct. -/
def sortData (data : TData E N O) : TData E N O := data.insertionSort (fun a b => a.1 ≤ b.1)

/-- Lines 125-136: data and metadata after adding timestamps. `own`: the metadata are those of the data. -/
def stampAll (env : PyEnv N O) (own : Bool) (data : TData E N O) (md : TMeta O) : R (TData E N O × TMeta O) :=
  match dummyStamps env with
  | .error e => .error e
  | .ok stamps =>
    match foldE (stampSource stamps) md data.keys with
    | .error e => .error e
    | .ok md' => .ok (if own then data.map (writeBack md') else data, md')

/-- The packing, lines 138-173. -/
def packAll (env : PyEnv N O) (v1 : Bool) (data : TData E N O) (md : TMeta O) : R (List (Part E N O)) :=
  if v1 then (if data.all (fun x => x.2.all (fun y => y.2.ok env)) then .ok [.whole data] else .error .type)
  else
    match mapE (sourceParts env md) (sortData data) with
    | .error e => .error e
    | .ok l => .ok l.flatten

/-- What `_serialize` gives: the message, and its arguments afterwards. -/
structure Serialized (E N O : Type) where
  msg : List (Part E N O)
  data : TData E N O
  metadata : TMeta O
  deriving DecidableEq, Repr

/-- `_serialize(data, metadata)`, export.py:121-173; `v1`: protocol version 1.0; `none` and the empty dict are both `[]`. -/
def serialize (env : PyEnv N O) (v1 dummy : Bool) (data : TData E N O) (metadata : TMeta O) : R (Serialized E N O) :=
  match (if metadata.isEmpty then mapE metaItem data else .ok metadata) with
  | .error e => .error e
  | .ok md =>
    match (if dummy then stampAll env metadata.isEmpty data md else .ok (data, md)) with
    | .error e => .error e
    | .ok (data', md') =>
      match packAll env v1 data' md' with
      | .error e => .error e
      | .ok msg => .ok ⟨msg, data', if metadata.isEmpty then [] else md'⟩

/-- `ZMQStreamer(port, protocol_version=...)`, export.py:93-102: is it version 1.0? -/
def protocolVersion (v : Str) : R Bool :=
  if v = ch! "1.0" then .ok true else if v = ch! "2.2" then .ok false else .error .value

/-! ### Serving files -/

variable {V : Type}

/-- `serve_files(path, port, source_glob, key_glob)`, export.py:234-245, for the data in the path: the trains fed to the
streamer. Simplification: if reading fails, the trains fed before are left out. -/
def serveFiles (data : R (DC V)) (sourceGlob keyGlob : Str) : R (List (Dict Str (SourceData V))) :=
  match data with
  | .error e => .error e
  | .ok c =>
    match c.select (.globs [(sourceGlob, keyGlob)]) with
    | .error e => .error e
    | .ok d =>
      match d.trains none none false with
      | .error e => .error e
      | .ok l => .ok ((l.map Prod.snd).filter (fun x => !x.isEmpty))

/-- The arguments of `karabo-bridge-serve-files` after parsing, export.py:250-261. -/
structure ServeArgs where
  path : Str
  port : Str
  source : Str
  key : Str

/-- `main(argv)`, export.py:249-263: what is served. `files` gives the data for a path. -/
def serveMain (files : Str → R (DC V)) (args : ServeArgs) : R (List (Dict Str (SourceData V))) :=
  serveFiles (files args.path) (ch! "*") (ch! "*")

end KD

/-
What streaming should do, in terms of histories and of the karabo_bridge protocol.
-/
import Verif.Model.Stream

namespace KD.Spec

variable {M : Type} [DecidableEq M]

/-- The n-th reply is the n-th train fed. -/
def InOrder (sent : List (Nat × M)) (fed : List M) : Prop :=
  ∀ (n : Nat) (c : Nat) (m : M), sent[n]? = some (c, m) → fed[n]? = some m

/-- `feed` is called by one thread: a call begins only when no other is waiting. -/
def OneFeeder (s : Streamer M) (acts : List (Act M)) : Prop :=
  ∀ (l l' : List (Act M)) (m : M) (t : Streamer M), acts = l ++ .feed m :: l' → s.run l = some t → t.waiting = []

/-- `start` is only called for a streamer which was not started, or was stopped. -/
def StartsOnce (s : Streamer M) (acts : List (Act M)) : Prop :=
  ∀ (l l' : List (Act M)) (t : Streamer M), acts = l ++ .start :: l' → s.run l = some t → t.current = none

/-- The requests `next` a client has made. -/
def asksOf (s : Streamer M) (client : Nat) : Nat := s.asked.countP (fun x => x.1 = client ∧ x.2 = ch! "next")

/-- The replies sent to a client. -/
def repliesTo (s : Streamer M) (client : Nat) : Nat := s.sent.countP (fun x => x.1 = client)

/-- The replies in sockets. -/
def inTransit (s : Streamer M) : List (Nat × M) := s.ifaces.flatMap (fun t => t.out)

end KD.Spec

namespace KD.Spec

variable {E N O : Type}

/-- What a client sees of a value: arrays, objects, and dicts. -/
inductive Seen (E O : Type) where
  | array (dtype : Str) (shape : List Nat) (elems : List E)
  | object (o : O)
  | dict (d : Dict Str O)
  deriving DecidableEq, Repr

/-- How a value should be seen: numbers as Python numbers, the rest as it is. -/
def seen (env : PyEnv N O) : TVal E N O → Seen E O
  | .array a => .array a.dtype a.shape a.elems
  | .number n => .object (env.item n)
  | .dict d => .dict d
  | .object o => .object o

/-- What msgpack gives back. -/
def unpacked : Packed O → Seen E O
  | .obj o => .object o
  | .dict d => .dict d

/-- What a client has after reading a message. -/
structure Got (E O : Type) where
  data : Dict Str (Dict Str (Seen E O))
  metadata : Dict Str (Dict Str O)
  deriving DecidableEq, Repr

/-- The karabo_bridge client for protocol 2.2: parts come in pairs of header and content. 'msgpack' content is the data of
a source; 'array' content is added to it, and must have the right size. -/
def decode : Got E O → List (Part E N O) → Option (Got E O)
  | g, [] => some g
  | g, .header s m :: .main d :: rest =>
    decode ⟨g.data.set s (d.map (fun x => (x.1, unpacked x.2))), g.metadata.set s m⟩ rest
  | g, .arrayHeader s p dt sh :: .bytes b :: rest =>
    match g.data.get? s with
    | none => none
    | some d => if b.length = sh.prod then decode ⟨g.data.set s (d.set p (.array dt sh b)), g.metadata⟩ rest else none
  | _, _ => none

/-- Reading a message. -/
def client (msg : List (Part E N O)) : Option (Got E O) := decode ⟨[], []⟩ msg

/-- Numpy arrays have as many elements as their shape says. -/
def WellFormed (data : TData E N O) : Prop :=
  data.keys.Nodup ∧ ∀ s props, (s, props) ∈ data → props.keys.Nodup ∧ ∀ k a, (k, .array a) ∈ props → a.elems.length = a.shape.prod

/-- The metadata a user gave, or those in the data of the source. -/
def givenMeta (data : TData E N O) (metadata : TMeta O) (s : Str) : Option (Dict Str O) :=
  if metadata = [] then
    match data.get? s with
    | none => none
    | some props =>
      match props.get? (ch! "metadata") with
      | none => some []
      | some (.dict d) => some d
      | some _ => none
  else metadata.get? s

/-- msgpack can pack everything in the data which is not an array. -/
def Packable (env : PyEnv N O) (data : TData E N O) : Prop :=
  ∀ s props k v, (s, props) ∈ data → (k, v) ∈ props →
    match v with
    | .array _ => True
    | .number n => env.packable (env.item n) = true
    | .dict d => ∀ x ∈ d, env.packable x.2 = true
    | .object o => env.packable o = true

end KD.Spec

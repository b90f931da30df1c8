/-
`serve_files`, karabo_data/export.py:219-246, as the sequence of calls it makes on its streamer.
-/
import Verif.Model.Stream

namespace KD

variable {V E N O M : Type}

/-- What `TrainIterator.__iter__` yields, reader.py:1292-1297, until it is finished or an exception is raised. -/
def DC.iterUntil (c : DC V) : DsCache V → List Nat → List (Nat × Dict Str (SourceData V)) × Option PyErr
  | _, [] => ([], none)
  | cache, tid :: ts =>
    match c.assemble cache tid with
    | (.error e, _) => ([], some e)
    | (.ok d, cache') => ((tid, d) :: (c.iterUntil cache' ts).1, (c.iterUntil cache' ts).2)

/-- The dict of one source as it is given to `feed`, reader.py:1265-1288: the metadata and the entries read from files.
`conv` says which numpy array or number an entry is, `int` makes a Python integer. -/
def feedSource (str : Str → O) (int : Nat → O) (conv : Entry V → TVal E N O) (sd : SourceData V) : Dict Str (TVal E N O) :=
  Dict.update [(ch! "metadata", .dict [(ch! "source", str sd.mdSource), (ch! "timestamp.tid", int sd.mdTid)])]
    (sd.data.map (fun y => (y.1, conv y.2)))

/-- The data of a train as it is given to `feed`, export.py:243-245. -/
def feedData (str : Str → O) (int : Nat → O) (conv : Entry V → TVal E N O) (d : Dict Str (SourceData V)) : TData E N O :=
  d.map (fun x => (x.1, feedSource str int conv x.2))

/-- The methods of a `ZMQStreamer`. -/
inductive Call (M : Type) where
  | start
  | feed (m : M)
  | stop
  deriving DecidableEq, Repr

/-- The loop at export.py:243-245: the messages fed, until a train cannot be serialized (in `feed`, export.py:216). -/
def feedAll (ser : Nat → Dict Str (SourceData V) → R M) : List (Nat × Dict Str (SourceData V)) → List M × Option PyErr
  | [] => ([], none)
  | (t, d) :: rest =>
    if d.isEmpty then feedAll ser rest
    else
      match ser t d with
      | .error e => ([], some e)
      | .ok m => (m :: (feedAll ser rest).1, (feedAll ser rest).2)

/-- `_serialize(data, None)`, export.py:121-173, of the data of train `t`; `now` is what `time()` returns then, and its text. -/
def serializeTrain (env : PyEnv N O) (int : Nat → O) (conv : Entry V → TVal E N O) (v1 dummy : Bool) (now : Nat → O × Str)
    (t : Nat) (d : Dict Str (SourceData V)) : R (List (Part E N O)) :=
  match serialize { env with now := (now t).1, nowStr := (now t).2 } v1 dummy (feedData env.str int conv d) [] with
  | .error e => .error e
  | .ok out => .ok out.msg

/-- `serve_files(path, port, source_glob, key_glob, protocol_version=…, …)`, export.py:234-246: the calls made on the
streamer, and the exception which is raised in the end. `ser` serializes for protocol 1.0 or not. -/
def serveCalls (data : R (DC V)) (sourceGlob keyGlob version : Str) (ser : Bool → Nat → Dict Str (SourceData V) → R M) :
    List (Call M) × Option PyErr :=
  match data with
  | .error e => ([], some e)
  | .ok c =>
    match c.select (.globs [(sourceGlob, keyGlob)]) with
    | .error e => ([], some e)
    | .ok d =>
      match protocolVersion version with
      | .error e => ([], some e)
      | .ok v1 =>
        let trains := d.iterUntil [] d.trainIds
        let fed := feedAll (ser v1) trains.1
        match fed.2, trains.2 with
        | some e, _ => (.start :: fed.1.map .feed, some e)
        | none, some e => (.start :: fed.1.map .feed, some e)
        | none, none => (.start :: fed.1.map .feed ++ [.stop], none)

end KD

/-
Iterating as Python does it: `TrainIterator`, karabo_data/reader.py:1225-1297, and `MPxDetectorTrainIterator`,
karabo_data/components.py:358-521, are generators. A loop over them gets the items one by one, until there are no more or
an exception is raised. `DC.trains` and `Det.trains` give the items only if there is no exception at all.
-/
import Verif.Model.Components

namespace KD

variable {V : Type}

/-- What `TrainIterator.__iter__` yields, reader.py:1292-1297, and the exception it stops with. -/
def DC.yields (c : DC V) (requireAll : Bool) :
    DsCache V → List Nat → List (Nat × Dict Str (SourceData V)) × Option PyErr
  | _, [] => ([], none)
  | cache, tid :: ts =>
    match (if requireAll then c.checkDataMissing tid else .ok false) with
    | .error e => ([], some e)
    | .ok true => c.yields requireAll cache ts
    | .ok false =>
      match c.assemble cache tid with
      | (.error e, _) => ([], some e)
      | (.ok d, cache') => ((tid, d) :: (c.yields requireAll cache' ts).1, (c.yields requireAll cache' ts).2)

/-- `for tid, data in run.trains(devices, train_range, require_all)`, reader.py:386-391: the items which the loop gets and
the exception it ends with. Exceptions of the selections are raised before the first item. -/
def DC.trainsLoop (c : DC V) (devices : Option SelArg) (trainRange : Option TrainRange) (requireAll : Bool) :
    List (Nat × Dict Str (SourceData V)) × Option PyErr :=
  match (match devices with
    | none => (.ok c : R (DC V))
    | some d => c.select d) with
  | .error e => ([], some e)
  | .ok c1 =>
    match (match trainRange with
      | none => (.ok c1 : R (DC V))
      | some tr => c1.selectTrains tr) with
    | .error e => ([], some e)
    | .ok c2 => c2.yields requireAll [] c2.trainIds

/-- What `MPxDetectorTrainIterator.__iter__` yields, components.py:516-521, and the exception it stops with. -/
def Det.yields (d : Det V) (libs : Libs) (num : V → Nat) (pulses : Pulses) :
    DsCache V → List Nat → List (Nat × Dict Str (IterVal V)) × Option PyErr
  | _, [] => ([], none)
  | cache, tid :: ts =>
    match d.data.checkDataMissing tid with
    | .error e => ([], some e)
    | .ok true => d.yields libs num pulses cache ts
    | .ok false =>
      match d.assemble libs num pulses tid cache with
      | (.error e, _) => ([], some e)
      | (.ok x, cache') => ((tid, x) :: (d.yields libs num pulses cache' ts).1, (d.yields libs num pulses cache' ts).2)

/-- `for tid, data in det.trains(pulses)`, components.py:333-351: the items which the loop gets and the exception it ends
with. -/
def Det.trainsLoop (d : Det V) (libs : Libs) (num : V → Nat) (pulses : PulseArg) :
    List (Nat × Dict Str (IterVal V)) × Option PyErr :=
  match checkPulses libs pulses with
  | .error e => ([], some e)
  | .ok ps => d.yields libs num ps [] d.data.trainIds

end KD

/-
Model of the order in which `FileWriter.write` goes through sets, /repo/karabo_data/writer.py:95-109.

`control_sources`, `instrument_sources` (reader.py:237-250, frozensets) and the result of `keys_for_source` (reader.py:309-330, a set)
are sets of strings: Python goes through them in an order which may differ from one process to the next (hash randomisation).
`DC.write` uses the order of the lists which stand for the sets in this model; here the order is a parameter.
-/
import Verif.Model.Writer

namespace KD

variable {V : Type}

/-- The orders in which the loops on writer.py:99-105 go through the sets: control sources (99), instrument sources (103), and the
keys of each source (100, 104). -/
structure SetOrder where
  control : List Str
  instrument : List Str
  keys : Str → List Str

/-- One loop over the keys of a source, writer.py:100-101 and 104-105. -/
def SetOrder.writeKeys (o : SetOrder) (add : WState V → Str → Str → R (WState V)) (w : WState V) (source : Str) : R (WState V) :=
  foldE (fun w key => add w source key) w (o.keys source)

/-- `FileWriter.write`, writer.py:95-109, with the given orders. -/
def SetOrder.write (o : SetOrder) (c : DC V) (addC addI : WState V → Str → Str → R (WState V)) : R (H5File V) :=
  match foldE (o.writeKeys addC) WState.new o.control with
  | .error e => .error e
  | .ok w =>
    match foldE (o.writeKeys addI) w o.instrument with
    | .error e => .error e
    | .ok w => w.finish c.trainIds

/-- `write(filename)`, reader.py:1154-1164, going through the sets in the given orders. -/
def DC.writeInOrder (c : DC V) (o : SetOrder) : R (H5File V) := o.write c (addControl c) (addInstrument c)

/-- `write_virtual(filename)`, reader.py:1166-1183, going through the sets in the given orders. -/
def DC.writeVirtualInOrder (c : DC V) (o : SetOrder) : R (H5File V) :=
  o.write c (fun w s k => dropPath (vAddControl c w s k)) (fun w s k => dropPath (vAddInstrument c w s k))

end KD

/-
What a virtual file should show when it is read: for each entry, what is in its source file now.
-/
import Verif.Spec.Write
import Verif.Model.Links

namespace KD.Spec

variable {V : Type}

/-- Entry `i` of a dataset of a file on disk, as the file is now; nothing if the file, the dataset or the entry does not
exist. -/
def valueNow (shows : Str → Option (H5File V)) (file : Str) (path : Path) (i : Nat) : Option V :=
  ((shows file).bind (fun h => h.datasets.get? path)).bind (fun ds => ds.rows[i]?)

/-- The path of a dataset in a file. -/
def fieldPath (instr : Bool) (source key : Str) : Path :=
  h5path (ch! "/" ++ sectionName instr ++ ch! "/" ++ source ++ ch! "/" ++ replaceCh '.' '/' key)

/-- The entries of train `t` which the file `g`, as it was opened, has for a field: their positions in the dataset. -/
def entryPositions (g : FileAccess V) (instr : Bool) (source key : Str) (t : Nat) : List Nat :=
  match g.getIndex source (groupName instr key), g.dataset (sectionName instr) source key with
  | .ok (firsts, counts), .ok ds => indexEntries g.trainIds firsts counts (List.range ds.rows.length) t
  | _, _ => []

/-- What is now on disk at the places of these entries; the fill value where there is nothing. -/
def entriesNow (fill : V) (shows : Str → Option (H5File V)) (g : FileAccess V) (instr : Bool) (source key : Str) (t : Nat) :
    List V :=
  (entryPositions g instr source key t).map
    (fun i => (valueNow shows g.filename (fieldPath instr source key) i).getD fill)

/-- The files of the collection are on disk as they were when they were opened. -/
def Unchanged (shows : Str → Option (H5File V)) (c : DC V) : Prop := ∀ f ∈ c.files, shows f.filename = some f.file

/-- A file has one dataset of each name. -/
def OneName (h : H5File V) : Prop := h.datasets.keys.Nodup

/-- In a file of the collection, as it is on disk now, the value `v` is at the place of frame number `k` of train `t`. -/
def FrameNow (shows : Str → Option (H5File V)) (c : DC V) (source key : Str) (t k : Nat) (v : V) : Prop :=
  ∃ f ∈ c.files, Holds f source ∧ ∃ i, (entryPositions f true source key t)[k]? = some i ∧
    valueNow shows f.filename (fieldPath true source key) i = some v

end KD.Spec

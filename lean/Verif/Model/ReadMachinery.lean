/-
Model of /repo/karabo_data/read_machinery.py (selection of trains, contiguous regions, merging of selections).
-/
import Verif.Model.Py

namespace KD

/-- A bound of a train ID slice, as given by the user: read_machinery.py:58-87 behaves differently for a plain
Python `int` and for a numpy integer (see `tidToSliceIx`). -/
structure TidBound where
  val : Int
  numpy : Bool
  deriving DecidableEq, Repr

/-- Position of the first occurrence: `l.index(x)`; `none` stands for the caught ValueError. -/
def indexOf? (t : Int) : List Nat → Option Nat
  | [] => none
  | a :: l => if (a : Int) = t then some 0 else (indexOf? t l).map (· + 1)

/-- `_tid_to_slice_ix(tid, train_ids, stop)`, read_machinery.py:58-87.

* `train_ids[0]` on an empty list raises IndexError (line 73).
* For an ID in a gap, `(train_ids > tid)` (line 87) compares a Python *list* with the ID: with a Python
  int this is a TypeError; with a numpy integer numpy's reflected operator makes it an elementwise comparison.
* Simplification: `train_ids` is a list of naturals (numpy uint64 scalars in the code). -/
def tidToSliceIx (tid : Option TidBound) (trainIds : List Nat) (stop : Bool) : R (Option Nat) :=
  match tid with
  | none => .ok none
  | some b =>
    match indexOf? b.val trainIds with
    | some i => .ok (some i)
    | none =>
      match trainIds.head?, trainIds.getLast? with
      | some first, some last =>
        if b.val < first then
          (if stop then .error .value else .ok none)
        else if b.val > last then
          (if stop then .ok none else .error .value)
        else if b.numpy then
          match nth (nonzero (trainIds.map (fun (t : Nat) => decide ((t : Int) > b.val)))) 0 with
          | .error e => .error e
          | .ok i => .ok (some i)
        else .error .type
      | _, _ => .error .index

/-- `idx.shape = (-1, 2)`: pair up consecutive elements; ValueError for an odd number (numpy). -/
def reshape2 : List Nat → R (List (Nat × Nat))
  | [] => .ok []
  | [_] => .error .value
  | a :: b :: l =>
    match reshape2 l with
    | .error e => .error e
    | .ok r => .ok ((a, b) :: r)

/-- `contiguous_regions(condition)`, read_machinery.py:122-145.
`np.diff` of booleans is elementwise "not equal"; `condition[0]` on an empty array is an IndexError. -/
def contiguousRegions (condition : List Bool) : R (List (Nat × Nat)) :=
  let d := List.zipWith (fun a b => a != b) condition condition.tail
  let idx := (nonzero d).map (· + 1)
  match condition.head?, condition.getLast? with
  | some c0, some cl =>
    let idx := if c0 then 0 :: idx else idx
    let idx := if cl then idx ++ [condition.length] else idx
    reshape2 idx
  | _, _ => .error .index

/-- A selection `{source: set(keys)}`, with `none` for Python's `None` meaning "all keys"
(read_machinery.py:148-153, reader.py:228-229). -/
abbrev Selection := Dict Str (Option (List Str))

/-- `union_selections(selections)`, read_machinery.py:148-164.
`selection_multi[source]` (lines 154-158) is the list of all values given for the source. -/
def unionSelections (sels : List Selection) : Selection :=
  let items := sels.flatten
  (items.map Prod.fst).dedup.map (fun source =>
    let keygroups := (items.filter (fun kv => kv.1 = source)).map Prod.snd
    (source, if none ∈ keygroups then none else some (keygroups.filterMap id).flatten))

end KD

/-
Model of /repo/karabo_data/components.py: the interface to multi-module detectors.
-/
import Verif.Model.Collection
import Verif.Model.Stacking

namespace KD

variable {V : Type}

/-! ### Pulse selections -/

/-- A bound of a slice: `None`, a Python integer, or something else. -/
inductive Bound where
  | none
  | int (i : Int)
  | other
  deriving DecidableEq, Repr

/-- What is between the brackets of `by_id[...]` or `by_index[...]`. -/
inductive PulseVal where
  | slice (start stop step : Bound)
  | int (i : Int)
  | list (l : List Int)
  deriving DecidableEq, Repr

/-- The argument `pulses` of `get_array` and `trains`: `by_id[...]`, `by_index[...]` or anything else. -/
inductive PulseArg where
  | by_ (id : Bool) (val : PulseVal)
  | other
  deriving DecidableEq, Repr

/-- A normalised selection: a slice or an array of unsigned integers. -/
inductive PulseSet where
  | slice (start stop step : Nat)
  | list (l : List Nat)
  deriving DecidableEq, Repr

/-- The result of `_check_pulse_selection`: `by_id` or `by_index` with a normalised selection. -/
structure Pulses where
  byId : Bool
  set : PulseSet
  deriving DecidableEq, Repr

/-- What depends on the versions of the libraries: whether numpy refuses to convert a negative integer to an unsigned one
(as numpy 2 does; before it wraps around), and whether h5py accepts an empty list as an index. -/
structure Libs where
  strictInts : Bool
  emptyListOk : Bool
  deriving DecidableEq, Repr

/-- `MAX_PULSES`, components.py:14. -/
def maxPulses : Nat := 2700

/-- A bound, or its default: components.py:52-54. -/
def Bound.getD (b : Bound) (default : Int) : Option Int :=
  match b with
  | .none => some default
  | .int i => some i
  | .other => Option.none

/-- Conversion of a Python integer to `np.uint64`, components.py:67, 69. -/
def castU64 (libs : Libs) (i : Int) : R Nat :=
  if i < 0 then (if libs.strictInts ∨ i < -2 ^ 63 then .error .overflow else .ok (i + 2 ^ 64).toNat)
  else if i < 2 ^ 64 then .ok i.toNat else .error .overflow

/-- `_check_pulse_selection(pulses)`, components.py:43-77. The check in lines 71-75 looks at unsigned integers, so it never
applies. -/
def checkPulses (libs : Libs) : PulseArg → R Pulses
  | .other => .error .type
  | .by_ id (.slice start stop step) =>
    match start.getD 0, stop.getD maxPulses, step.getD 1 with
    | some a, some b, some s =>
      if s < 1 then .error .value
      else if a < 0 ∨ b < 0 then .error .notImplemented
      else .ok ⟨id, .slice a.toNat b.toNat s.toNat⟩
    | _, _, _ => .error .type
  | .by_ id (.int i) =>
    match castU64 libs i with
    | .error e => .error e
    | .ok n => .ok ⟨id, .list [n]⟩
  | .by_ id (.list l) =>
    match mapE (castU64 libs) l with
    | .error e => .error e
    | .ok ns => .ok ⟨id, .list ns⟩

/-- `np.arange(start, stop, step)`. -/
def arange (start stop step : Nat) : List Nat := List.range' start ((stop - start + step - 1) / step) step

/-- `l[start:stop:step]` for a positive step. -/
def slStep {α : Type _} (l : List α) (start stop step : Nat) : List α :=
  (arange start (min stop l.length) step).filterMap (fun i => l[i]?)

/-- The wanted numbers, components.py:195-198, 213-216, 468-471. -/
def PulseSet.desired : PulseSet → List Nat
  | .slice a b s => arange a b s
  | .list l => l

/-- An array or a slice of positions. -/
inductive Positions where
  | slice (start stop step : Nat)
  | list (l : List Nat)
  deriving DecidableEq, Repr

/-- `np.nonzero(np.isin(ids, desired))[0]`, components.py:200, 473. -/
def isinPositions (ids desired : List Nat) : List Nat := nonzero (ids.map (fun p => decide (p ∈ desired)))

/-- `MPxDetectorBase._select_pulse_ids(pulses, data_pulse_ids)`, components.py:184-200. -/
def selectPulseIds (set : PulseSet) (ids : List Nat) : Positions :=
  if set = .slice 0 maxPulses 1 then .slice 0 ids.length 1 else .list (isinPositions ids set.desired)

/-- The positions wanted in one train, components.py:220-221; `start` is the begin of the data read, which line 260
subtracts. Simplification: if a train with data begins before that, IndexError here. -/
def trainPositions (desired : List Nat) (start : Nat) (fc : Nat × Nat) : R (List Nat) :=
  let wanted := desired.filter (fun k => decide (k < fc.2))
  if wanted ≠ [] ∧ fc.1 < start then .error .index else .ok (wanted.map (fun k => fc.1 - start + k))

/-- `MPxDetectorBase._select_pulse_indices(pulses, firsts - start, counts)`, components.py:202-223. -/
def selectPulseIndices (set : PulseSet) (start : Nat) (firsts counts : List Nat) : R Positions :=
  if set = .slice 0 maxPulses 1 then .ok (.slice 0 counts.sum 1)
  else
    match mapE (trainPositions set.desired start) (firsts.zip counts) with
    | .error e => .error e
    | .ok l => .ok (.list l.flatten)

/-- `a[positions]` for a numpy array. -/
def npTake {α : Type _} (l : List α) : Positions → R (List α)
  | .slice a b s => .ok (slStep l a b s)
  | .list ps => mapE (nth l) ps

/-- Are the numbers strictly increasing? -/
def strictlyIncreasing : List Nat → Bool
  | a :: b :: l => decide (a < b) && strictlyIncreasing (b :: l)
  | _ => true

/-- `ds[list]` for an h5py dataset and a list which is not empty: the positions must be increasing and inside. -/
def h5Fancy (rows : List V) (ps : List Nat) : R (List V) :=
  if strictlyIncreasing ps then
    match mapE (nth rows) ps with
    | .error _ => .error .value
    | .ok l => .ok l
  else .error .type

/-- `ds[offset + positions]` for an h5py dataset, components.py:269-283 and 440-450. `emptyOk`: what an empty list does. -/
def h5Take (emptyOk : Bool) (rows : List V) (offset : Nat) : Positions → R (List V)
  | .slice a b s => .ok (slStep rows (offset + a) (offset + b) s)
  | .list [] => if emptyOk then .ok [] else .error .type
  | .list ps => h5Fancy rows (ps.map (fun p => offset + p))

/-! ### Labelled arrays with a train and a pulse dimension -/

/-- The result of `_guess_axes`: the labels of both dimensions, the shape of one entry, and the entries by label.
Where there is no entry the array has NaN. -/
structure PArr (V : Type) where
  trains : List Nat
  pulses : List Nat
  rowShape : List Nat
  cells : Dict (Nat × Nat) V
  deriving DecidableEq, Repr

/-- The shape of an entry without the extra dimension of raw files, components.py:19-20. -/
def squeezeShape : List Nat → List Nat
  | 1 :: rest => rest
  | s => s

/-- `_guess_axes(data, train_pulse_ids)`, components.py:17-40. Entries have 0, 2 or 3 dimensions, otherwise the dimension
names do not fit (ValueError), as when the numbers of labels and entries differ. Separating the two dimensions (`unstack`)
needs labels which are all different. -/
def guessAxes (rows : List V) (rowShape : List Nat) (labels : List (Nat × Nat)) : R (PArr V) :=
  let shape := squeezeShape rowShape
  if shape.length ≠ 3 ∧ shape.length ≠ 2 ∧ shape.length ≠ 0 then .error .value
  else if rows.length ≠ labels.length then .error .value
  else if labels.dedup.length ≠ labels.length then .error .value
  else .ok ⟨sortedSet (labels.map Prod.fst), sortedSet (labels.map Prod.snd), shape, labels.zip rows⟩

/-- The labels of several arrays joined by `xarray.concat` in the dimensions which are not concatenated: the same labels if
they are all equal, otherwise the sorted union. -/
def joinLabels : List (List Nat) → List Nat
  | [] => []
  | l :: ls => if ls.all (fun m => m = l) then l else sortedSet (l :: ls).flatten

/-- The dimensions `dim_0`, `dim_1`, ... which two arrays both have are of the same size. -/
def sizesAgree : List Nat → List Nat → Bool
  | a :: s, b :: t => decide (a = b) && sizesAgree s t
  | _, _ => true

/-- The dimensions of arrays joined by `xarray.concat` along a new one, components.py:331, 512: ValueError if arrays have
the same dimension with different sizes. Arrays which lack a dimension are repeated along it. -/
def joinSizes : List (List Nat) → R (List Nat)
  | [] => .ok []
  | s :: rest =>
    match joinSizes rest with
    | .error e => .error e
    | .ok t => if sizesAgree s t then .ok (if s.length < t.length then t else s) else .error .value

/-- The dimensions of joined arrays where the last dimensions have the same names (`data_gain`, `slow_scan`, `fast_scan`),
components.py:26-34. Simplification: if the first array lacks `data_gain`, xarray puts that dimension last. -/
def joinImageSizes (shapes : List (List Nat)) : R (List Nat) :=
  match joinSizes (shapes.map List.reverse) with
  | .error e => .error e
  | .ok t => .ok t.reverse

/-- The first train label, for sorting (components.py:302); the arrays there are not empty. -/
def PArr.firstTrain (a : PArr V) : Nat := a.trains.headD 0

/-- `xarray.concat(sorted(arrays, ...), dim='train')`, components.py:301-303, for a non-empty list. -/
def concatTrains (arrays : List (PArr V)) : R (PArr V) :=
  let l := sortBy PArr.firstTrain arrays
  match joinImageSizes (l.map PArr.rowShape) with
  | .error e => .error e
  | .ok shape => .ok ⟨(l.map PArr.trains).flatten, joinLabels (l.map PArr.pulses), shape, (l.map PArr.cells).flatten⟩

/-- A labelled array with a module dimension, as returned by `get_array`. -/
structure DetArr (V : Type) where
  modules : List Nat
  trains : List Nat
  pulses : List Nat
  rowShape : List Nat
  cells : Dict Nat (Dict (Nat × Nat) V)
  deriving DecidableEq, Repr

/-- The entry for a module, train and pulse; `none` is NaN. -/
def DetArr.cell (a : DetArr V) (m t p : Nat) : Option V :=
  match a.cells.get? m with
  | none => none
  | some d => d.get? (t, p)

/-- `xarray.concat(arrays, pd.Index(modnos, name='module'))`, components.py:331, 512; ValueError without arrays. -/
def concatModules (arrays : List (Nat × PArr V)) : R (DetArr V) :=
  match arrays with
  | [] => .error .value
  | _ =>
    match joinImageSizes (arrays.map (fun x => x.2.rowShape)) with
    | .error e => .error e
    | .ok shape =>
      .ok ⟨arrays.map Prod.fst, joinLabels (arrays.map (fun x => x.2.trains)), joinLabels (arrays.map (fun x => x.2.pulses)),
        shape, arrays.map (fun x => (x.1, x.2.cells))⟩

/-! ### The detector object -/

/-- Does the text occur at the beginning of s or later? -/
def occursIn (text : Str) : Str → Bool
  | [] => text.isEmpty
  | c :: rest => startsWith (c :: rest) text || occursIn text rest

/-- `cls._source_re.match(source).group(1)`, components.py:84, 130-132, 541, 562, 583, for the pattern `(.+)/DET/(\d+)CH`
(`infix` is none) or `((.+)INFIX(.*))/DET/(\d+)CH`. As both `.+` and `.*` are greedy the name ends at the last
`/DET/(\d+)CH`; before that there must be the infix, with at least one character in front. -/
def detectorName (infix_ : Option Str) (source : Str) : Option Str :=
  match detectorMatch source with
  | none => none
  | some (name, _) =>
    match infix_ with
    | none => some name
    | some text => if occursIn text (name.drop 1) then some name else none

/-- `_find_detector_name(data)`, components.py:126-142. -/
def findDetectorName (infix_ : Option Str) (c : DC V) : R Str :=
  match (c.instrumentSources.filterMap (detectorName infix_)).dedup with
  | [] => .error .sourceName
  | [name] => .ok name
  | _ => .error .value

/-- `detector_re.match(source)` giving the module number, components.py:146-151. -/
def moduleNumber (name source : Str) : Option Nat :=
  if startsWith source (name ++ ch! "/DET/") then
    let rest := source.drop (name.length + 5)
    let digits := rest.takeWhile Char.isDigit
    if digits ≠ [] ∧ startsWith (rest.drop digits.length) (ch! "CH") then some (parseNat digits) else none
  else none

/-- The module number of a source, if it is among those wanted: components.py:148-155. -/
def wantedModule (name : Str) (modules : Option (List Nat)) (source : Str) : Option (Str × Nat) :=
  match moduleNumber name source with
  | none => none
  | some n =>
    match modules with
    | none => some (source, n)
    | some ms => if n ∈ ms then some (source, n) else none

/-- `_identify_sources(data, detector_name, modules)`, components.py:144-160. Simplification: wanted module numbers which
are negative or no integers, which match nothing, are left out. -/
def identifySources (c : DC V) (name : Str) (modules : Option (List Nat)) : R (Dict Str Nat) :=
  match c.instrumentSources.filterMap (wantedModule name modules) with
  | [] => .error .sourceName
  | l => .ok l

/-- `{m: s for (s, m) in source_to_modno.items()}`, components.py:119. -/
def invertDict (d : Dict Str Nat) : Dict Nat Str := d.foldl (fun r x => r.set x.2 x.1) []

/-- `np.split(a, indices)`: `off` is the position of the beginning of l. -/
def npSplit {α : Type _} (off : Nat) (l : List α) : List Nat → List (List α)
  | [] => [l]
  | i :: is => l.take (i - off) :: npSplit i (l.drop (i - off)) is

/-- `np.where(np.diff(a) != 1)[0] + 1`, components.py:123. -/
def splitIndices (a : List Nat) : List Nat :=
  (nonzero (List.zipWith (fun x y => decide (y ≠ x + 1)) a a.tail)).map (· + 1)

/-- `train_id_chunks`, components.py:122-124. -/
def trainChunks (a : List Nat) : List (List Nat) := npSplit 0 a (splitIndices a)

/-- `MPxDetectorBase`: the attributes set by `__init__`. `modno_to_source` is `invertDict sourceToModno`,
`train_id_chunks` is `trainChunks data.trainIds`. -/
structure Det (V : Type) where
  name : Str
  sourceToModno : Dict Str Nat
  framesPerTrain : Nat
  data : DC V
  deriving DecidableEq, Repr

/-- In how many of the series does the train have data? components.py:164. -/
def modulesPresent (sers : List (List (Nat × Nat))) (t : Nat) : Nat :=
  sers.countP (fun ser => ser.any (fun p => decide (p.1 = t ∧ p.2 > 0)))

/-- The trains with data of enough modules, components.py:163-172. `sers` are the columns of the data frame; its rows are
the trains of all columns together. -/
def trainsWithModules (sers : List (List (Nat × Nat))) (minModules : Int) : List Nat :=
  (sortedSet (sers.flatten.map Prod.fst)).filter (fun t => decide (minModules ≤ modulesPresent sers t))

/-- The different non-zero frame counts, components.py:108. -/
def countValues (sers : List (List (Nat × Nat))) : List Nat :=
  ((sers.flatten.map Prod.snd).filter (fun n => n != 0)).dedup

/-- `MPxDetectorBase.__init__(data, detector_name, modules, min_modules=minModules)`, components.py:89-124. -/
def Det.init (infix_ : Option Str) (c : DC V) (name : Option Str) (modules : Option (List Nat)) (minModules : Int) :
    R (Det V) :=
  match (match name with
    | some n => (.ok n : R Str)
    | none => findDetectorName infix_ c) with
  | .error e => .error e
  | .ok n =>
    match identifySources c n modules with
    | .error e => .error e
    | .ok s2m =>
      match c.select (.globs (s2m.map (fun x => (x.1, ch! "*")))) with
      | .error e => .error e
      | .ok d =>
        match mapE (fun x : Str × Nat => d.getDataCounts x.1 (ch! "image.data")) s2m with
        | .error e => .error e
        | .ok sers =>
          match countValues sers with
          | [] => .error .value
          | [frames] =>
            let tids := trainsWithModules sers minModules
            if tids = [] then .error .value
            else
              match d.selectTrains (.idList (tids.map Int.ofNat)) with
              | .error e => .error e
              | .ok d' =>
                if (invertDict s2m).length ≠ s2m.length then .error .assertion else .ok ⟨n, s2m, frames, d'⟩
          | _ => .error .value

/-! ### get_array -/

/-- `np.repeat(values, counts)`: one count is used for all values, otherwise there must be as many counts as values. -/
def npRepeatE {α : Type _} (values : List α) (counts : List Nat) : R (List α) :=
  match counts with
  | [n] => .ok (values.flatMap (List.replicate n))
  | _ => if counts.length = values.length then .ok (npRepeat values counts) else .error .value

/-- The last item; IndexError when empty. -/
def lastOf {α : Type _} (l : List α) : R α :=
  match l.getLast? with
  | some a => .ok a
  | none => .error .index

/-- `np.nonzero(l == x)[0][0]`. -/
def positionOf (l : List Nat) (x : Nat) : R Nat := nth (nonzero (l.map (fun t => t == x))) 0

/-- The positions read in one file for one chunk of trains, with the labels: components.py:245-267. `a` and `b` are the
bounds of `data_slice`, `ids` the pulse IDs in it (line 249-254). -/
def pulsePositions (pulses : Pulses) (tids : List Nat) (a : Nat) (firsts counts ids : List Nat) :
    R (Positions × List (Nat × Nat)) :=
  match (if pulses.byId then .ok (selectPulseIds pulses.set ids) else selectPulseIndices pulses.set a firsts counts) with
  | .error e => .error e
  | .ok pos =>
    match npTake tids pos with
    | .error e => .error e
    | .ok ts =>
      match npTake ids pos with
      | .error e => .error e
      | .ok ps => if ts.length = ps.length then .ok (pos, ts.zip ps) else .error .value

/-- The data of one file for the trains at the positions i to j, components.py:240-285. `num` gives the number stored in
an entry of the pulse ID dataset. Simplification: the sum in line 243 does not overflow; pulse IDs are numbers, not
arrays. -/
def rangeData (num : V → Nat) (source key : Str) (pulses : Pulses) (f : FileAccess V) (firsts counts : List Nat)
    (firstTid lastTid i j : Nat) : R (PArr V) :=
  let fs := sl firsts i (j + 1)
  let cs := sl counts i (j + 1)
  match nth fs 0, lastOf fs, lastOf cs with
  | .ok a, .ok lf, .ok lc =>
    match npRepeatE (arange firstTid (lastTid + 1) 1) cs with
    | .error e => .error e
    | .ok tids =>
      match f.dataset ch! "INSTRUMENT" source ((partition '.' key).1 ++ ch! ".pulseId") with
      | .error e => .error e
      | .ok pds =>
        match pulsePositions pulses tids a fs cs ((sl pds.rows a (lf + lc)).map num) with
        | .error e => .error e
        | .ok (pos, labels) =>
          match f.dataset ch! "INSTRUMENT" source key with
          | .error e => .error e
          | .ok ds =>
            match h5Take true ds.rows a pos with
            | .error e => .error e
            | .ok rows => guessAxes rows ds.rowShape labels
  | _, _, _ => .error .index

/-- One chunk of consecutive trains in one file, components.py:232-287; `none`: no overlap. -/
def chunkData (num : V → Nat) (source key : Str) (pulses : Pulses) (f : FileAccess V) (firsts counts : List Nat)
    (chunk : List Nat) : R (Option (PArr V)) :=
  match nth chunk 0, lastOf chunk, nth f.trainIds 0, lastOf f.trainIds with
  | .ok c0, .ok cl, .ok f0, .ok fl =>
    if cl < f0 ∨ c0 > fl then .ok none
    else
      match positionOf f.trainIds (max c0 f0) with
      | .error e => .error e
      | .ok i =>
        match positionOf f.trainIds (min cl fl) with
        | .error e => .error e
        | .ok j =>
          match rangeData num source key pulses f firsts counts (max c0 f0) (min cl fl) i j with
          | .error e => .error e
          | .ok a => .ok (some a)
  | _, _, _, _ => .error .index

/-- The arrays from one file, components.py:228-287. -/
def fileData (num : V → Nat) (source key : Str) (pulses : Pulses) (chunks : List (List Nat)) (f : FileAccess V) :
    R (List (PArr V)) :=
  match f.getIndex source (partition '.' key).1 with
  | .error e => .error e
  | .ok (firsts, counts) =>
    match mapE (chunkData num source key pulses f firsts counts) chunks with
    | .error e => .error e
    | .ok l => .ok (l.filterMap id)

/-- `_get_module_pulse_data(source, key, pulses)`, components.py:225-303. Simplification: an array is empty exactly when
it has no entries (an entry is not itself an empty array). -/
def Det.moduleData (d : Det V) (num : V → Nat) (source key : Str) (pulses : Pulses) : R (PArr V) :=
  match mapE (fileData num source key pulses (trainChunks d.data.trainIds)) (d.data.sourceIndex source) with
  | .error e => .error e
  | .ok l =>
    match l.flatten.filter (fun a => !a.cells.isEmpty) with
    | [] =>
      match l.flatten with
      | [] => .error .generic
      | a :: _ => .ok a
    | arrays => concatTrains arrays

/-- An array with a module and a train dimension, as `get_array` returns for data without pulses: for each module, the
entries in the order of the train labels (`none` in `rows` is NaN). Without any data there are no labels. -/
structure SlowArr (V : Type) where
  modules : List Nat
  labels : Option (List Nat)
  rowShape : List Nat
  rows : List (List (Option V))
  deriving DecidableEq, Repr

/-- The train labels of arrays joined by `xarray.concat`, components.py:331: if all have the same labels (or no labels, when
there is no data at all) these are kept. Otherwise they are the sorted union, to which the arrays are fitted:
ValueError if one has no labels (its length 0 is not that of the others), or labels which repeat.
Simplification: with some versions of pandas labels may repeat, if they are all in the union as often. -/
def slowLabels (coords : List (Option (List Nat))) : R (Option (List Nat)) :=
  match coords with
  | [] => .error .value
  | c :: rest =>
    if rest.all (fun c' => decide (c' = c)) then .ok c
    else if coords.all (fun c' => decide (c' ≠ none ∧ (c'.getD []).Nodup)) then
      .ok (some (sortedSet (coords.flatMap (fun c' => c'.getD []))))
    else .error .value

/-- The entries of one module fitted to the common labels, components.py:331. -/
def alignSlow (labels : Option (List Nat)) (a : LArr V) : List (Option V) :=
  if a.coords = labels then a.rows.map some
  else (labels.getD []).map (fun t => Dict.get? ((a.coords.getD []).zip a.rows) t)

/-- `xarray.concat(arrays, pd.Index(modnos, name='module'))`, components.py:331, for arrays with a train dimension only.
Simplification: data of different types is converted to a common type, which is not modelled. -/
def concatSlow (arrays : List (Nat × LArr V)) : R (SlowArr V) :=
  match slowLabels (arrays.map (fun x => x.2.coords)) with
  | .error e => .error e
  | .ok labels =>
    match joinSizes (arrays.map (fun x => x.2.rowShape)) with
    | .error e => .error e
    | .ok shape => .ok ⟨arrays.map Prod.fst, labels, shape, arrays.map (fun x => alignSlow labels x.2)⟩

/-- What `get_array` returns: an array with pulses or, for other data, without. -/
inductive DetResult (V : Type) where
  | pulses (a : DetArr V)
  | slow (a : SlowArr V)
  deriving DecidableEq, Repr

/-- Modules in order, components.py:322, 490. -/
def Det.modules (d : Det V) : List (Nat × Str) := sortBy Prod.fst (invertDict d.sourceToModno)

/-- The array of one module with pulse data, components.py:322-329. -/
def Det.modulePart (d : Det V) (num : V → Nat) (key : Str) (pulses : Pulses) (x : Nat × Str) : R (Nat × PArr V) :=
  match d.moduleData num x.2 key pulses with
  | .error e => .error e
  | .ok a => .ok (x.1, a)

/-- The array of one module with other data, components.py:328-329. -/
def Det.slowPart (d : Det V) (key : Str) (x : Nat × Str) : R (Nat × LArr V) :=
  match d.data.getArray x.2 key id with
  | .error e => .error e
  | .ok a => .ok (x.1, a)

/-- `get_array(key, pulses)`, components.py:305-331. -/
def Det.getArray (d : Det V) (libs : Libs) (num : V → Nat) (key : Str) (pulses : PulseArg) : R (DetResult V) :=
  match checkPulses libs pulses with
  | .error e => .error e
  | .ok ps =>
    if startsWith key (ch! "image.") then
      match mapE (d.modulePart num key ps) d.modules with
      | .error e => .error e
      | .ok l =>
        match concatModules l with
        | .error e => .error e
        | .ok a => .ok (.pulses a)
    else
      match mapE (d.slowPart key) d.modules with
      | .error e => .error e
      | .ok l =>
        match concatSlow l with
        | .error e => .error e
        | .ok a => .ok (.slow a)

/-! ### Iterating over trains -/

/-- `MPxDetectorTrainIterator._find_data(source, key, tid)`, components.py:381-399, with the cache. -/
def Det.find (d : Det V) (cache : DsCache V) (source key : Str) (tid : Nat) :
    R (Option (FileAccess V × Nat × Dataset V)) × DsCache V :=
  match cachedFind cache source key tid with
  | some r => (.ok (some r), cache)
  | none =>
    match d.data.findData source tid with
    | none => (.ok none, cache)
    | some (f, pos) =>
      match f.dataset ch! "INSTRUMENT" source key with
      | .error e => (.error e, cache)
      | .ok ds => (.ok (some (f, pos, ds)), cache.set (source, key) (f, ds))

/-- `MPxDetectorTrainIterator._select_pulse_ids(pulse_ids)`, components.py:452-473. -/
def iterPulseIds (set : PulseSet) (ids : List Nat) : Positions :=
  match set with
  | .slice a b 1 =>
    .slice ((nonzero (ids.map (fun p => decide (p ≥ a)))).headD ids.length)
      ((nonzero (ids.map (fun p => decide (p ≥ b)))).headD ids.length) 1
  | _ => .list (isinPositions ids set.desired)

/-- `MPxDetectorTrainIterator._select_pulse_indices(count)`, components.py:475-485. -/
def iterPulseIndices (set : PulseSet) (count : Nat) : Positions :=
  match set with
  | .slice a b s => .slice a (min b count) s
  | .list l => .list (l.filter (fun k => decide (k < count)))

/-- `_get_pulse_data(source, key, tid)` for the file, position and dataset found, components.py:419-450. -/
def iterPulseData (libs : Libs) (num : V → Nat) (source key : Str) (pulses : Pulses) (tid : Nat)
    (r : FileAccess V × Nat × Dataset V) : R (PArr V) :=
  match r.1.getIndex source (partition '.' key).1 with
  | .error e => .error e
  | .ok (firsts, counts) =>
    match nth firsts r.2.1, nth counts r.2.1 with
    | .ok first, .ok count =>
      match r.1.dataset ch! "INSTRUMENT" source ((partition '.' key).1 ++ ch! ".pulseId") with
      | .error e => .error e
      | .ok pds =>
        let ids := (sl pds.rows first (first + count)).map num
        let pos := if pulses.byId then iterPulseIds pulses.set ids else iterPulseIndices pulses.set count
        match npTake ids pos with
        | .error e => .error e
        | .ok ps =>
          match h5Take libs.emptyListOk r.2.2.rows first pos with
          | .error e => .error e
          | .ok rows => guessAxes rows r.2.2.rowShape (ps.map (fun p => (tid, p)))
    | _, _ => .error .index

/-- The data of one module for one key of a train; for data without pulses with the shape of the array. -/
inductive ModData (V : Type) where
  | pulse (a : PArr V)
  | slow (shape : List Nat) (e : Entry V)
  deriving DecidableEq, Repr

/-- The shape of `xarray.DataArray(ds[first])` or `xarray.DataArray(ds[first : first + count])`, components.py:409-412. -/
def entryDims (rowShape : List Nat) : Entry V → List Nat
  | .one _ => rowShape
  | .many l => l.length :: rowShape

/-- The data of one key of one module, components.py:401-450, 496-502; `none` if the train is not found. -/
def Det.keyData (d : Det V) (libs : Libs) (num : V → Nat) (pulses : Pulses) (tid : Nat) (cache : DsCache V)
    (source key : Str) : R (Option (ModData V)) × DsCache V :=
  match d.find cache source key tid with
  | (.error e, cache') => (.error e, cache')
  | (.ok none, cache') => (.ok none, cache')
  | (.ok (some r), cache') =>
    if startsWith key (ch! "image.") then
      match iterPulseData libs num source key pulses tid r with
      | .error e => (.error e, cache')
      | .ok a => (.ok (some (.pulse a)), cache')
    else
      match iterInstrumentEntry source r key with
      | .error e => (.error e, cache')
      | .ok e => (.ok (some (.slow (entryDims r.2.2.rowShape e) e)), cache')

/-- The two loops of `_assemble_data`, components.py:490-508, as one loop over (module number, source, key): what was
found, in order. -/
def Det.collect (d : Det V) (libs : Libs) (num : V → Nat) (pulses : Pulses) (tid : Nat) :
    DsCache V → List (Nat × Str × Str) → R (List (Str × Nat × ModData V)) × DsCache V
  | cache, [] => (.ok [], cache)
  | cache, (m, source, key) :: rest =>
    match d.keyData libs num pulses tid cache source key with
    | (.error e, cache') => (.error e, cache')
    | (.ok o, cache') =>
      match d.collect libs num pulses tid cache' rest with
      | (.error e, cache'') => (.error e, cache'')
      | (.ok l, cache'') =>
        match o with
        | none => (.ok l, cache'')
        | some x => (.ok ((key, m, x) :: l), cache'')

/-- What iterating gives for one key: an array with pulses or, for other data, one with the entries of the modules and
the shape for each module. An entry with fewer dimensions is repeated along the other ones. -/
inductive IterVal (V : Type) where
  | pulses (a : DetArr V)
  | slow (shape : List Nat) (l : List (Nat × Entry V))
  deriving DecidableEq, Repr

/-- The arrays with pulses in a list. -/
def pulseParts (l : List (Nat × ModData V)) : List (Nat × PArr V) :=
  l.filterMap (fun x => match x.2 with | .pulse a => some (x.1, a) | .slow _ _ => none)

/-- The other data in a list, with the shapes. -/
def slowParts (l : List (Nat × ModData V)) : List (Nat × List Nat × Entry V) :=
  l.filterMap (fun x => match x.2 with | .pulse _ => none | .slow shape e => some (x.1, shape, e))

/-- Joining the data of the modules for one key, components.py:511-514. Simplification: data of different types is
converted to a common type, which is not modelled. -/
def joinKey (items : List (Str × Nat × ModData V)) (key : Str) : R (Str × IterVal V) :=
  let l := (items.filter (fun x => x.1 = key)).map Prod.snd
  if startsWith key (ch! "image.") then
    match concatModules (pulseParts l) with
    | .error e => .error e
    | .ok a => .ok (key, .pulses a)
  else
    match joinSizes ((slowParts l).map (fun x => x.2.1)) with
    | .error e => .error e
    | .ok shape => .ok (key, .slow shape ((slowParts l).map (fun x => (x.1, x.2.2))))

/-- The keys of one module, components.py:490-492. -/
def Det.workOf (d : Det V) (x : Nat × Str) : R (List (Nat × Str × Str)) :=
  match d.data.keysForSource x.2 with
  | .error e => .error e
  | .ok ks => .ok (ks.map (fun k => (x.1, x.2, k)))

/-- `_assemble_data(tid)`, components.py:487-514. Simplification: the keys of all sources are listed before any data is
read. -/
def Det.assemble (d : Det V) (libs : Libs) (num : V → Nat) (pulses : Pulses) (tid : Nat) (cache : DsCache V) :
    R (Dict Str (IterVal V)) × DsCache V :=
  match mapE d.workOf d.modules with
  | .error e => (.error e, cache)
  | .ok work =>
    match d.collect libs num pulses tid cache work.flatten with
    | (.error e, cache') => (.error e, cache')
    | (.ok items, cache') => (mapE (joinKey items) (items.map Prod.fst).dedup, cache')

/-- `MPxDetectorTrainIterator.__iter__`, components.py:516-521: the items yielded, up to the first exception. -/
def Det.iterate (d : Det V) (libs : Libs) (num : V → Nat) (pulses : Pulses) :
    DsCache V → List Nat → R (List (Nat × Dict Str (IterVal V)))
  | _, [] => .ok []
  | cache, tid :: ts =>
    match d.data.checkDataMissing tid with
    | .error e => .error e
    | .ok true => d.iterate libs num pulses cache ts
    | .ok false =>
      match d.assemble libs num pulses tid cache with
      | (.error e, _) => .error e
      | (.ok x, cache') =>
        match d.iterate libs num pulses cache' ts with
        | .error e => .error e
        | .ok l => .ok ((tid, x) :: l)

/-- `trains(pulses)`, components.py:333-351: all the items. -/
def Det.trains (d : Det V) (libs : Libs) (num : V → Nat) (pulses : PulseArg) :
    R (List (Nat × Dict Str (IterVal V))) :=
  match checkPulses libs pulses with
  | .error e => .error e
  | .ok ps => d.iterate libs num ps [] d.data.trainIds

end KD

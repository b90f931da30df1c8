/-
Model of `FileValidator`, /repo/karabo_data/validation.py:28-142: checking the train IDs and the indexes of one file.
-/
import Verif.Model.FileAccess

namespace KD

variable {V : Type}

/-- The problems `FileValidator` records, with the dataset concerned. Simplification: the texts of the messages are
replaced by the numbers in them. -/
inductive Problem where
  | zeros                                            -- validation.py:55-57
  | notIncreasing (pos a b : Nat)                    -- validation.py:66-71
  | outside (dataset : Str) (maxEnd size : Nat)      -- validation.py:84-89
  | lengths (dataset : Str) (firsts counts : Nat)    -- validation.py:104-108
  | entries (dataset : Str) (firsts trains : Nat)    -- validation.py:111-115
  | start (dataset : Str)                            -- validation.py:124
  | gaps (dataset : Str) (number pos a n b : Nat)    -- validation.py:131-133
  | overlaps (dataset : Str) (number pos a n b : Nat)      -- validation.py:138-140
  deriving DecidableEq, Repr

/-- `(mask).nonzero()[0]`: the positions at which `p` holds. -/
def positions {α : Type _} (p : α → Bool) (l : List α) : List Nat :=
  (List.range l.length).filter (fun i => match l[i]? with | some a => p a | none => false)

/-- `check_trainids()`, validation.py:48-71: the problems recorded. -/
def checkTrainIds (h : H5File V) : R (List Problem) :=
  match need h.trainId with
  | .error e => .error e
  | .ok tids =>
    let zeros := if 0 ∈ tids ∧ (tids.drop (tids.idxOf 0)).all (fun t => t == 0) = false then [.zeros] else []
    let nonzero := tids.filter (fun t => t != 0)
    let bad := positions (fun x : Nat × Nat => decide (x.2 ≤ x.1)) (nonzero.zip (nonzero.drop 1))
    let incr := match bad with
      | [] => []
      | pos :: _ => [.notIncreasing pos (nonzero.getD pos 0) (nonzero.getD (pos + 1) 0)]
    .ok (zeros ++ incr)

/-- Addition of unsigned 64-bit integers. -/
def addU64 (a b : Nat) : Nat := (a + b) % 2 ^ 64

/-- `x.astype(np.int64)` for an unsigned 64-bit integer. -/
def toInt64 (n : Nat) : Int := if n < 2 ^ 63 then n else n - 2 ^ 64

/-- Conversion of a natural number to a double: round to 53 bits, ties to even. -/
def f64Nat (n : Nat) : Nat :=
  if n < 2 ^ 53 then n
  else
    let e := n.log2 - 52
    let q := n / 2 ^ e
    let r := n % 2 ^ e
    let up := 2 * r > 2 ^ e ∨ (2 * r = 2 ^ e ∧ q % 2 = 1)
    (if up then q + 1 else q) * 2 ^ e

/-- Conversion of an integer to a double. -/
def f64Int (x : Int) : Int := if x < 0 then -(f64Nat x.natAbs : Int) else f64Nat x.natAbs

/-- `firsts[1:].astype(np.int64) - (firsts + counts)[:-1]`, validation.py:126. numpy subtracts an unsigned from a
signed array by converting both to doubles. Simplification: the difference of the doubles is not rounded again, which
does not change its sign. -/
def indexGaps (firsts counts : List Nat) : R (List Int) :=
  match zipBroad addU64 firsts counts with
  | .error e => .error e
  | .ok ends => zipBroad (fun (b e : Nat) => f64Int (toInt64 b) - f64Int (e : Int)) (firsts.drop 1) ends.dropLast

/-- The record of gaps or overlaps, validation.py:128-140; `counts[pos]` fails when `counts` has one entry which numpy used
for all trains. -/
def gapProblem (p : Int → Bool) (mk : Nat → Nat → Nat → Nat → Nat → Problem) (firsts counts : List Nat) (gaps : List Int) :
    R (List Problem) :=
  match positions p gaps with
  | [] => .ok []
  | pos :: rest =>
    match nth firsts pos, nth counts pos, nth firsts (pos + 1) with
    | .ok a, .ok n, .ok b => .ok [mk (rest.length + 1) pos a n b]
    | _, _, _ => .error .index

/-- `check_index_contiguous(firsts, counts, record)`, validation.py:120-142; `firsts[0]` fails when there are
no trains. -/
def checkIndexContiguous (dataset : Str) (firsts counts : List Nat) : R (List Problem) :=
  match firsts with
  | [] => .error .index
  | f0 :: _ =>
    let start := if f0 ≠ 0 then [.start dataset] else []
    match indexGaps firsts counts with
    | .error e => .error e
    | .ok gs =>
      match gapProblem (fun g => decide (g > 0)) (.gaps dataset) firsts counts gs with
      | .error e => .error e
      | .ok p1 =>
        match gapProblem (fun g => decide (g < 0)) (.overlaps dataset) firsts counts gs with
        | .error e => .error e
        | .ok p2 => .ok (start ++ p1 ++ p2)

/-- `x.max()` of a nonempty array. -/
def maxOf (l : List Nat) : Nat := l.foldl max 0

/-- The check of one key in `check_indices`, validation.py:77-89. -/
def FileAccess.checkKey (f : FileAccess V) (source key : Str) : R (List Problem) :=
  let path := ch! "INSTRUMENT/" ++ source ++ ch! "/" ++ replaceCh '.' '/' key
  match f.getIndex source (partition '.' key).1 with
  | .error e => .error e
  | .ok (firsts, counts) =>
    match need (f.file.datasets.get? (h5path path)) with
    | .error e => .error e
    | .ok ds =>
      match zipBroad addU64 firsts counts with
      | .error e => .error e
      | .ok ends =>
        if ends.any (fun e => decide (e > ds.rows.length)) then .ok [.outside path (maxOf ends) ds.rows.length] else .ok []

/-- The check of one group in `check_indices`, validation.py:91-117. The arrays have one dimension in this model, so
lines 95-101 never apply. -/
def FileAccess.checkGroup (f : FileAccess V) (source group : Str) : R (List Problem) :=
  let path := ch! "INDEX/" ++ source ++ ch! "/" ++ group
  match f.getIndex source group with
  | .error e => .error e
  | .ok (firsts, counts) =>
    let p1 := if firsts.length ≠ counts.length then [.lengths path firsts.length counts.length] else []
    let p2 := if firsts.length ≠ f.trainIds.length then [.entries path firsts.length f.trainIds.length] else []
    match checkIndexContiguous path firsts counts with
    | .error e => .error e
    | .ok p3 => .ok (p1 ++ p2 ++ p3)

/-- The checks of one source in `check_indices`, validation.py:75-117. Simplification: the groups, a Python set, are
taken in order of first appearance. -/
def FileAccess.checkSource (f : FileAccess V) (source : Str) : R (List Problem) :=
  match f.getKeys source with
  | .error e => .error e
  | .ok keys =>
    match mapE (f.checkKey source) keys with
    | .error e => .error e
    | .ok ps =>
      match mapE (f.checkGroup source) (keys.map (fun k => (partition '.' k).1)).dedup with
      | .error e => .error e
      | .ok qs => .ok (ps.flatten ++ qs.flatten)

/-- `check_indices()`, validation.py:73-117: the problems recorded. -/
def FileAccess.checkIndices (f : FileAccess V) : R (List Problem) :=
  match mapE f.checkSource f.instrumentSources with
  | .error e => .error e
  | .ok ps => .ok ps.flatten

/-- `FileValidator.run_checks()`, validation.py:39-43. -/
def FileAccess.runChecks (f : FileAccess V) : R (List Problem) :=
  match f.checkIndices with
  | .error e => .error e
  | .ok ps =>
    match checkTrainIds f.file with
    | .error e => .error e
    | .ok qs => .ok (ps ++ qs)

/-- `FileValidator.validate()`, validation.py:34-37: the problems are raised as an exception, here the value
`some problems`. -/
def FileAccess.validate (f : FileAccess V) : R (Option (List Problem)) :=
  match f.runChecks with
  | .error e => .error e
  | .ok [] => .ok none
  | .ok ps => .ok (some ps)

end KD

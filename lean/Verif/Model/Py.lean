/-
Python and numpy primitives used by the rest of the model.

Nothing in this file models karabo_data itself: these are the (documented) list-level meanings of the
Python / numpy / h5py operations which the code in /repo/karabo_data calls.
-/
import Mathlib.Data.List.Sort
import Mathlib.Data.List.Dedup

namespace KD

/-- A Python `str` (or decoded `bytes`). -/
abbrev Str := List Char

/-- `ch! "ab"` is notation for the list of characters `['a', 'b']`. -/
syntax:max "ch! " str : term
macro_rules
  | `(ch! $s:str) => do
    let cs := s.getString.toList.toArray.map (fun c => Lean.Syntax.mkCharLit c)
    `(([$cs,*] : Str))

/-- The exceptions the modelled code can raise; message texts are dropped.
`sourceName`, `propertyName` and `trainId` are those of /repo/karabo_data/exceptions.py:1-29. -/
inductive PyErr where
  | sourceName | propertyName | trainId
  | value | type | index | key | attribute | assertion | zeroDivision
  | generic          -- a bare `Exception(...)`
  | overflow | notImplemented | stopIteration
  | noReturn         -- not an exception: the code does not return
  | os               -- OSError and subclasses, other than the two below
  | permission | fileNotFound
  deriving DecidableEq, Repr

/-- Result of Python code which may raise. -/
abbrev R (α : Type _) := Except PyErr α

/-- Decidable equality on results, to evaluate concrete cases. -/
instance {α : Type _} [DecidableEq α] : DecidableEq (R α)
  | .ok a, .ok b => if h : a = b then isTrue (by rw [h]) else isFalse (fun e => h (Except.ok.inj e))
  | .error a, .error b =>
    if h : a = b then isTrue (by rw [h]) else isFalse (fun e => h (Except.error.inj e))
  | .ok _, .error _ => isFalse (fun e => nomatch e)
  | .error _, .ok _ => isFalse (fun e => nomatch e)

/-- `[f(x) for x in l]`, stopping at the first exception. -/
def mapE {α β : Type _} (f : α → R β) : List α → R (List β)
  | [] => .ok []
  | a :: l =>
    match f a with
    | .error e => .error e
    | .ok b =>
      match mapE f l with
      | .error e => .error e
      | .ok bs => .ok (b :: bs)

/-- A left-to-right loop carrying a state, stopping at the first exception. -/
def foldE {α σ : Type _} (f : σ → α → R σ) : σ → List α → R σ
  | s, [] => .ok s
  | s, a :: l =>
    match f s a with
    | .error e => .error e
    | .ok s' => foldE f s' l

/-- `any(f(x) for x in l)`, stopping at the first True or exception. -/
def anyE {α : Type _} (f : α → R Bool) : List α → R Bool
  | [] => .ok false
  | a :: l =>
    match f a with
    | .error e => .error e
    | .ok true => .ok true
    | .ok false => anyE f l

/-! ### Strings -/

/-- `s.partition(sep)` for a one-character separator, as (before, after);
after is empty when the separator is absent. -/
def partition (sep : Char) : Str → Str × Str
  | [] => ([], [])
  | c :: cs => if c = sep then ([], cs) else (c :: (partition sep cs).1, (partition sep cs).2)

/-- `s.split(sep)` for a one-character separator. -/
def splitCh (sep : Char) : Str → List Str
  | [] => [[]]
  | c :: cs =>
    if c = sep then [] :: splitCh sep cs
    else
      match splitCh sep cs with
      | [] => [[c]]
      | h :: t => (c :: h) :: t

/-- `sep.join(parts)` for a one-character separator. -/
def joinCh (sep : Char) : List Str → Str
  | [] => []
  | [p] => p
  | p :: q :: ps => p ++ sep :: joinCh sep (q :: ps)

/-- `s.replace(a, b)` for single characters. -/
def replaceCh (a b : Char) (s : Str) : Str := s.map (fun c => if c = a then b else c)

/-- `s.endswith(suffix)`. -/
def endsWith (s suffix : Str) : Bool := suffix.isSuffixOf s

/-- `s.startswith(prefix)`. -/
def startsWith (s pre : Str) : Bool := pre.isPrefixOf s

/-- `str(n)` for an integer. -/
def natStr (n : Nat) : Str := Nat.toDigits 10 n

/-! ### Lists and slices -/

/-- `l[i]` for a non-negative position; `IndexError` when out of range. -/
def nth {α : Type _} (l : List α) (i : Nat) : R α :=
  match l[i]? with
  | some a => .ok a
  | none => .error .index

/-- `l[i]` for a Python integer (negative counts from the end). -/
def pyIndex {α : Type _} (l : List α) (i : Int) : R α :=
  let j := if i < 0 then i + l.length else i
  if j < 0 then .error .index else nth l j.toNat

/-- One bound of a slice, clipped to the sequence: CPython's `PySlice_AdjustIndices`.
`neg` says that the step is negative. -/
def sliceBound (x : Int) (n : Nat) (neg : Bool) : Int :=
  if x < 0 then
    let y := x + n
    if y < 0 then (if neg then -1 else 0) else y
  else if x ≥ n then (if neg then (n : Int) - 1 else n) else x

/-- The positions selected by `slice(start, stop, step)` in a sequence of length `n`
(CPython's `PySlice_AdjustIndices`); `ValueError` for a zero step. -/
def slicePositions (start stop step : Option Int) (n : Nat) : R (List Nat) :=
  let st := step.getD 1
  if st = 0 then .error .value
  else
    let neg := decide (st < 0)
    let lo := match start with
      | none => if neg then (n : Int) - 1 else 0
      | some x => sliceBound x n neg
    let hi := match stop with
      | none => if neg then -1 else (n : Int)
      | some x => sliceBound x n neg
    let len : Nat :=
      if neg then (if hi < lo then ((lo - hi - 1) / (-st) + 1).toNat else 0)
      else (if lo < hi then ((hi - lo - 1) / st + 1).toNat else 0)
    .ok ((List.range len).map (fun (k : Nat) => (lo + (k : Int) * st).toNat))

/-- `l[start:stop:step]`. -/
def pySlice {α : Type _} (l : List α) (start stop step : Option Int) : R (List α) :=
  match slicePositions start stop step l.length with
  | .error e => .error e
  | .ok ps => .ok (ps.filterMap (fun i => l[i]?))

/-- `l[a:b]` for natural numbers `a ≤ b` (numpy, h5py and Python clip to the length). -/
def sl {α : Type _} (l : List α) (a b : Nat) : List α := (l.drop a).take (b - a)

/-- `sorted(set(l))` for integers. -/
def sortedSet (l : List Nat) : List Nat := l.dedup.insertionSort (· ≤ ·)

/-- `sorted(l, key=key)` (stable). -/
def sortBy {α : Type _} (key : α → Nat) (l : List α) : List α :=
  l.insertionSort (fun a b => key a ≤ key b)

/-- `mask.nonzero()[0]`: the positions of `True`, starting to count at `off`. -/
def nonzeroFrom (off : Nat) : List Bool → List Nat
  | [] => []
  | b :: l => if b then off :: nonzeroFrom (off + 1) l else nonzeroFrom (off + 1) l

/-- `mask.nonzero()[0]`. -/
def nonzero (l : List Bool) : List Nat := nonzeroFrom 0 l

/-- `a[mask]` with a boolean mask. -/
def maskSel {α : Type _} : List α → List Bool → List α
  | a :: l, b :: m => if b then a :: maskSel l m else maskSel l m
  | _, _ => []

/-- `np.repeat(values, counts)`. -/
def npRepeat {α : Type _} : List α → List Nat → List α
  | a :: l, n :: ns => List.replicate n a ++ npRepeat l ns
  | _, _ => []

/-- Exclusive cumulative sums starting at `acc`: `r = zeros; r[1:] = np.cumsum(counts)[:-1]`
for `acc = 0`. -/
def exclSums (acc : Nat) : List Nat → List Nat
  | [] => []
  | n :: ns => acc :: exclSums (acc + n) ns

/-! ### Dictionaries -/

/-- A Python dict: association list in insertion order. -/
abbrev Dict (K V : Type _) := List (K × V)

/-- `d.get(k)`. -/
def Dict.get? {K V : Type _} [DecidableEq K] : Dict K V → K → Option V
  | [], _ => none
  | (k', v) :: d, k => if k' = k then some v else Dict.get? d k

/-- `d[k] = v`: replaces in place, or appends. -/
def Dict.set {K V : Type _} [DecidableEq K] : Dict K V → K → V → Dict K V
  | [], k, v => [(k, v)]
  | (k', v') :: d, k, v => if k' = k then (k', v) :: d else (k', v') :: Dict.set d k v

/-- `d.keys()`. -/
def Dict.keys {K V : Type _} (d : Dict K V) : List K := d.map Prod.fst

/-- `d.update(items)`. -/
def Dict.update {K V : Type _} [DecidableEq K] (d : Dict K V) (items : List (K × V)) : Dict K V :=
  items.foldl (fun d kv => d.set kv.1 kv.2) d

end KD

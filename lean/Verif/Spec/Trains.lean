/- Meaning of Python slices and of train ID ranges, independently of any code. -/
import Verif.Model.ReadMachinery

namespace KD.Spec

/-- Where a slice bound points in a sequence of length `n`: negative numbers count from the end. -/
def fromEnd (n : Nat) (x : Int) : Int := if x < 0 then x + n else x

/-- Position `p` is selected by `seq[start:stop:step]` with `step > 0` in a sequence of length `n`
(Python Library Reference, "Sequence Types", notes 3 to 5): it is reached from the
start (clipped to the beginning) in whole steps, and lies before the stop and before the end. -/
def InSliceUp (start stop : Option Int) (step : Int) (n : Nat) (p : Nat) : Prop :=
  let i : Int := match start with
    | none => 0
    | some x => max (fromEnd n x) 0
  p < n ∧ i ≤ p ∧ step ∣ (p : Int) - i ∧
    (match stop with
     | none => True
     | some x => (p : Int) < fromEnd n x)

/-- Position `p` is selected by `seq[start:stop:step]` with `step < 0`: it is reached going down from
the start (clipped to the last element), and lies above the stop. -/
def InSliceDown (start stop : Option Int) (step : Int) (n : Nat) (p : Nat) : Prop :=
  let i : Int := match start with
    | none => n - 1
    | some x => min (fromEnd n x) (n - 1)
  (p : Int) ≤ i ∧ step ∣ i - (p : Int) ∧
    (match stop with
     | none => True
     | some x => fromEnd n x < (p : Int))

/-- `t` lies in the range of train IDs from `start` (included) to `stop` (excluded). -/
def InIdRange (start stop : Option Int) (t : Nat) : Prop :=
  (∀ a, start = some a → a ≤ (t : Int)) ∧ (∀ b, stop = some b → (t : Int) < b)

instance (start stop : Option Int) (t : Nat) : Decidable (InIdRange start stop t) :=
  match start, stop with
  | none, none => isTrue ⟨by simp, by simp⟩
  | none, some b => if h : (t : Int) < b then isTrue ⟨by simp, by simpa using h⟩
      else isFalse (fun h' => h (h'.2 b rfl))
  | some a, none => if h : a ≤ (t : Int) then isTrue ⟨by simpa using h, by simp⟩
      else isFalse (fun h' => h (h'.1 a rfl))
  | some a, some b => if h : a ≤ (t : Int) ∧ (t : Int) < b then
        isTrue ⟨by simpa using h.1, by simpa using h.2⟩
      else isFalse (fun h' => h ⟨h'.1 a rfl, h'.2 b rfl⟩)

end KD.Spec

namespace KD.Spec

/-- A train ID between the first and the last of `ts`, but missing from it. -/
def InGap (ts : List Nat) (a : Int) : Prop :=
  (∃ t ∈ ts, (t : Int) < a) ∧ (∃ t ∈ ts, a < (t : Int)) ∧ ∀ t ∈ ts, (t : Int) ≠ a

/-- A bound given as a plain Python integer which is between the first and the last train, but missing. -/
def PlainGap (ts : List Nat) (b : Option TidBound) : Prop := ∃ x, b = some x ∧ x.numpy = false ∧ InGap ts x.val

/-- The range starts after all trains. -/
def StartsAfter (ts : List Nat) (b : Option TidBound) : Prop := ∃ x, b = some x ∧ ∀ t ∈ ts, (t : Int) < x.val

/-- The range ends before all trains. -/
def EndsBefore (ts : List Nat) (b : Option TidBound) : Prop := ∃ x, b = some x ∧ ∀ t ∈ ts, x.val < (t : Int)

/-- Every `k`-th element of a list, starting with the first. -/
def everyNth {α : Type _} (k : Nat) (l : List α) : List α :=
  l.zipIdx.filterMap (fun xi => if xi.2 % k = 0 then some xi.1 else none)

end KD.Spec

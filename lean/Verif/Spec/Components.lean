/-
What users mean by selecting pulses, and where the frames of a detector module are (docs/agipd_lpd_data.rst,
docs/data_format.rst), stated on file contents.
-/
import Verif.Spec.Data
import Verif.Spec.Detector
import Verif.Spec.Stacking
import Verif.Model.Components

namespace KD.Spec

variable {V : Type}

/-- A bound given as `None` or an integer. -/
def GoodBound (b : Bound) : Prop := b ≠ .other

/-- The value of a bound of a slice, with the default. -/
def boundValue (b : Bound) (default : Int) : Int := match b with | .int i => i | _ => default

/-- The number `n` is in the Python slice `start:stop:step` (not negative, positive step): from `start` (0 if not given)
on, below `stop` if given, every `step`-th. -/
def InSlice (start stop step : Bound) (n : Nat) : Prop :=
  boundValue start 0 ≤ n ∧ (∀ b, stop = .int b → (n : Int) < b) ∧ ((n : Int) - boundValue start 0) % boundValue step 1 = 0

/-- The user asks for the frame number `k` of a train, which has the pulse ID `p`. -/
def Asked (arg : PulseArg) (k p : Nat) : Prop :=
  match arg with
  | .by_ id (.slice start stop step) => InSlice start stop step (if id then p else k)
  | .by_ id (.int i) => ((if id then p else k : Nat) : Int) = i
  | .by_ id (.list l) => ((if id then p else k : Nat) : Int) ∈ l
  | .other => False

/-- In a file, frame number `k` of train `t` of a source is the entry `v` of the key, and has the pulse ID `p`: according
to the index of the group, the frames of the train are `count` rows from `first` on. -/
def FrameIn (num : V → Nat) (f : FileAccess V) (source key : Str) (t k p : Nat) (v : V) : Prop :=
  ∃ (i : Nat) (firsts counts : List Nat) (first count : Nat),
    f.trainIds[i]? = some t ∧ f.getIndex source (partition '.' key).1 = .ok (firsts, counts) ∧
    firsts[i]? = some first ∧ counts[i]? = some count ∧ k < count ∧
    (∃ pds, f.dataset (ch! "INSTRUMENT") source (pulseIdKey key) = .ok pds ∧ ∃ x, pds.rows[first + k]? = some x ∧ num x = p) ∧
    ∃ ds, f.dataset (ch! "INSTRUMENT") source key = .ok ds ∧ ds.rows[first + k]? = some v

/-- In a file of the collection having the source, frame number `k` of train `t` is `v` and has the pulse ID `p`. -/
def FrameOf (num : V → Nat) (c : DC V) (source key : Str) (t k p : Nat) (v : V) : Prop :=
  ∃ f ∈ c.files, Holds f source ∧ FrameIn num f source key t k p v

/-- No train has more than 2700 frames, and no pulse ID is above 2699 (the machine makes at most 2700 pulses per train). -/
def PulsesBelowMax (num : V → Nat) (c : DC V) (source key : Str) : Prop :=
  ∀ t k p v, FrameOf num c source key t k p v → k < 2700 ∧ p < 2700

/-- Within a train the pulse IDs increase. -/
def PulsesIncrease (num : V → Nat) (c : DC V) (source key : Str) : Prop :=
  ∀ t k k' p p' v v', FrameOf num c source key t k p v → FrameOf num c source key t k' p' v' → k < k' → p < p'

/-- The user asks for a range of pulse IDs: `by_id[start:stop]`, with no step or step 1. -/
def IdRange (arg : PulseArg) (start stop : Bound) : Prop :=
  ∃ step, arg = .by_ true (.slice start stop step) ∧ boundValue step 1 = 1

/-- What iterating takes of the frames of a train. For a range of pulse IDs: the frames from the first one whose pulse ID
is not below `start` on, up to before the first one whose pulse ID is not below `stop`. Otherwise: what is asked for. -/
def TakenIter (num : V → Nat) (c : DC V) (source key : Str) (t : Nat) (arg : PulseArg) (k p : Nat) : Prop :=
  (∀ start stop, IdRange arg start stop →
    (∃ k' p' v', k' ≤ k ∧ FrameOf num c source key t k' p' v' ∧ boundValue start 0 ≤ p') ∧
    ∀ k' p' v' b, k' ≤ k → FrameOf num c source key t k' p' v' → stop = .int b → (p' : Int) < b) ∧
  ((∀ start stop, ¬ IdRange arg start stop) → Asked arg k p)

/-- The frames of a source can be read: the index is valid for the data and for the pulse IDs. -/
def FramesValid (c : DC V) (source key : Str) : Prop :=
  ValidIn c true source key ∧ ValidIn c true source (pulseIdKey key)

/-- A weaker condition, enough for reading single trains: the index need not be contiguous. -/
def FramesIndexed (c : DC V) (source key : Str) : Prop :=
  IndexedIn c true source key ∧ IndexedIn c true source (pulseIdKey key)

/-- `n` is the module number of a source of the detector `name`. -/
def ModuleNo (name source : Str) (n : Nat) : Prop :=
  ∃ rest digits, source = name ++ rest ∧ DetHere rest digits ∧ n = decimal digits

/-- `name` is the detector name in the name of a source: what is before the last `/DET/…CH`, which must be something,
containing the text of the detector type after its first character. -/
def DetectorOf (kind : Option Str) (source name : Str) : Prop :=
  (∃ rest digits, source = name ++ rest ∧ DetHere rest digits ∧ name ≠ [] ∧
    ∀ name' rest' digits', source = name' ++ rest' → name' ≠ [] → DetHere rest' digits' → name'.length ≤ name.length) ∧
  ∀ text, kind = some text → ∃ before after, before ≠ [] ∧ name = before ++ text ++ after

/-- A list cut into maximal runs of consecutive numbers. -/
structure RunsOf (l : List Nat) (runs : List (List Nat)) : Prop where
  all : runs.flatten = l
  nonempty : ∀ r ∈ runs, r ≠ []
  consecutive : ∀ r ∈ runs, ∀ i a b, r[i]? = some a → r[i + 1]? = some b → b = a + 1
  maximal : ∀ i r s a b, runs[i]? = some r → runs[i + 1]? = some s → r.getLast? = some a → s.head? = some b → b ≠ a + 1

end KD.Spec

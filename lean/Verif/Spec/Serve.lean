/-
A program using a streamer, and what the clients of `serve_files` should see.
-/
import Verif.Model.Serve
import Verif.Spec.Stream

namespace KD.Spec

variable {V E N O M : Type}

/-- The calls of the program among all steps. -/
def callOf : Act M → Option (Call M)
  | .start => some .start
  | .feed m => some (.feed m)
  | .stop => some .stop
  | _ => none

/-- In an execution, a program makes these calls one after the other, and has not got further than it has: each call is made
when the one before has returned (a `feed` when it has put its message, a `stop` when it has joined the thread). -/
structure Follows [DecidableEq M] (s : Streamer M) (acts : List (Act M)) (calls : List (Call M)) : Prop where
  order : acts.filterMap callOf <+: calls
  returned : ∀ (l l' : List (Act M)) (a : Act M) (t : Streamer M), acts = l ++ a :: l' → (callOf a).isSome = true →
    s.run l = some t → t.waiting = [] ∧ t.joining = false

/-- What the client got are the data of the train: the same sources, for each of them the same keys and values, and
metadata with the name of the source and the train ID. -/
def ShowsTrain (env : PyEnv N O) (int : Nat → O) (conv : Entry V → TVal E N O) (d : Dict Str (SourceData V)) (g : Got E O) : Prop :=
  (∀ s, d.get? s = none → g.data.get? s = none) ∧
  ∀ s sd, d.get? s = some sd →
    (∃ got, g.data.get? s = some got ∧ ∀ k, k ≠ ch! "metadata" → got.get? k = (sd.data.get? k).map (fun e => seen env (conv e))) ∧
    ∃ m, g.metadata.get? s = some m ∧ m.get? (ch! "source") = some (env.str sd.mdSource) ∧
      m.get? (ch! "timestamp.tid") = some (int sd.mdTid)

end KD.Spec

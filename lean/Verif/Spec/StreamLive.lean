/-
What it means that streaming goes on: infinite executions in which no thread is starved.
-/
import Verif.Spec.Stream

namespace KD.Spec

variable {M : Type} [DecidableEq M]

/-- An infinite execution: the state at each moment, and what happens then (perhaps nothing). -/
structure Execution (maxlen : Int) (state : Nat → Streamer M) (act : Nat → Option (Act M)) : Prop where
  init : state 0 = Streamer.new M maxlen
  idle : ∀ n, act n = none → state (n + 1) = state n
  next : ∀ n a, act n = some a → (state n).step a = some (state (n + 1))

/-- If steps of this kind are possible from some moment on, at each moment, one happens. -/
def Fair (state : Nat → Streamer M) (act : Nat → Option (Act M)) (kind : Act M → Prop) : Prop :=
  ∀ n, (∀ k, n ≤ k → ∃ a, kind a ∧ ((state k).step a).isSome = true) → ∃ k a, n ≤ k ∧ act k = some a ∧ kind a

/-- The steps of the thread of an interface. -/
inductive OfThread (j : Nat) : Act M → Prop where
  | bind : OfThread j (.bind j)
  | check : OfThread j (.check j)
  | recv (i : Nat) : OfThread j (.recv j i)
  | handle : OfThread j (.handle j)
  | get : OfThread j (.get j)
  | send : OfThread j (.send j)
  | close : OfThread j (.close j)

/-- The return of a call of `feed`. -/
inductive OfFeed : Act M → Prop where
  | put (i : Nat) : OfFeed (.put i)

/-- The transmission of a reply. -/
inductive OfNetwork : Act M → Prop where
  | deliver (j i : Nat) : OfNetwork (.deliver j i)

/-- The return of `stop`. -/
inductive OfStop : Act M → Prop where
  | joined : OfStop .joined

/-- Every thread runs again and again as long as it can, and replies are transmitted. -/
structure NobodyStarves (state : Nat → Streamer M) (act : Nat → Option (Act M)) : Prop where
  thread : ∀ j, Fair state act (OfThread j)
  feed : Fair state act OfFeed
  network : Fair state act OfNetwork
  stop : Fair state act OfStop

/-- How a streamer is used: `start` is called once, clients ask for the next train only, and requests are not lost. -/
structure ProperUse (act : Nat → Option (Act M)) : Prop where
  started : ∃ n, act n = some .start
  once : ∀ m n, act m = some .start → act n = some .start → m = n
  next : ∀ n c r, act n = some (.request c r) → r = ch! "next"
  kept : ∀ n i, act n ≠ some (.lose i)

end KD.Spec

/-
Which integers are exact doubles, and what rounding to the nearest one is.
-/
import Mathlib.Algebra.Order.Ring.Nat

namespace KD.Spec

/-- The number has at most 53 significant bits. -/
def IsDouble (m : Nat) : Prop := ∃ k e, k < 2 ^ 53 ∧ m = k * 2 ^ e

/-- The distance of two numbers. -/
def apart (a b : Nat) : Nat := (a - b) + (b - a)

/-- `d` is the double nearest to `n`; of two which are equally near, the one whose last bit (of 53) is zero. -/
structure NearestDouble (n d : Nat) : Prop where
  double : IsDouble d
  nearest : ∀ m, IsDouble m → apart n d ≤ apart n m
  tie : ∀ m, IsDouble m → m ≠ d → apart n m = apart n d → ∃ k e, 2 ^ 52 ≤ k ∧ k < 2 ^ 53 ∧ k % 2 = 0 ∧ d = k * 2 ^ e

end KD.Spec

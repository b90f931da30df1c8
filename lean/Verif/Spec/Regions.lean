/- What "contiguous regions" of a mask means, independently of any code. -/
namespace KD.Spec

/-- `[a, b)` is a maximal run of `true` in the mask `m`. -/
def IsMaximalRun (m : List Bool) (a b : Nat) : Prop :=
  a < b ∧ b ≤ m.length ∧ (∀ i, a ≤ i → i < b → m[i]? = some true) ∧
    (a = 0 ∨ m[a - 1]? = some false) ∧ (b = m.length ∨ m[b]? = some false)

end KD.Spec

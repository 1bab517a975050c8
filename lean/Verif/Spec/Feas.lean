import Mathlib.Algebra.Order.Field.Basic
import Mathlib.Algebra.BigOperators.Group.Finset.Basic

/-! Specification vocabulary for constraint violation. -/

namespace Sleqp

variable {K : Type*} [Field K] [LinearOrder K]

/-- Distance of `c` from the interval `[lb, ub]`: the larger of the two
one-sided excesses, or 0. -/
def viol (c lb ub : K) : K := max (max (lb - c) (c - ub)) 0

/-- `m` is the largest of `f 0, …, f (n-1)` and `0`. -/
def IsMaxZero (m : K) (n : Nat) (f : Nat → K) : Prop :=
  0 ≤ m ∧ (∀ i < n, f i ≤ m) ∧ (m = 0 ∨ ∃ i < n, f i = m)

end Sleqp

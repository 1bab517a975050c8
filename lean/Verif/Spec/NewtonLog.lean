import Verif.Spec.Steihaug

/-!
Size of the residuum of the optimality conditions of the trust-region subproblem.
-/

namespace Sleqp
variable {K : Type*} [Field K] [LinearOrder K]
variable {n : Nat}
open Matrix

/-- `r` is the largest absolute value of the coordinates of `x`, or zero -/
def IsLargest (x : Fin n → K) (r : K) : Prop := (∀ i, |x i| ≤ r) ∧ (r = 0 ∨ ∃ i, r = |x i|)

/-- residuum of the optimality conditions at the step `s` with multiplier `u` of the trust region -/
def TrProblem.residuum (q : TrProblem n K) (s : Fin n → K) (u : K) : Fin n → K := q.P *ᵥ (q.g + q.B *ᵥ s + u • s)

end Sleqp

import Verif.Model.CauchyLp
import Verif.Spec.Vec

/-! Specification for C86. -/

namespace Sleqp
variable {K : Type*} [Field K] [LinearOrder K]

/-- In the solution of the linear program, variable `i`, which is not fixed, sits at a bound of the trust region of radius `r` around `x`
(and not at one of its own bounds further away than that). -/
def RegionActive (eps r : K) (lb ub x : Nat → K) (stat : Nat → BaseStat) (i : Nat) : Prop :=
  isEq (lb i) (ub i) eps = false ∧ ((stat i = .lower ∧ r ≤ x i - lb i) ∨ (stat i = .upper ∧ r ≤ ub i - x i))

/-- Constraint `i` is active in the basis while one of its slacks is not at zero: it is satisfied with the help of a slack only. -/
def SlackUsed (n m : Nat) (varStat consStat : Nat → BaseStat) (i : Nat) : Prop :=
  consStat i ≠ .basic ∧ (varStat (n + i) ≠ .lower ∨ varStat (n + m + i) ≠ .lower)

end Sleqp

import Verif.Model.Acceptance
import Verif.Spec.Feas
import Mathlib.Algebra.BigOperators.Group.Finset.Basic

/-! The penalty function, in terms of values of objective and constraints. -/

namespace Sleqp
variable {K : Type*} [Field K] [LinearOrder K]

/-- objective plus penalty parameter times the total violation of the constraints -/
def LpEnv.penaltyFn (e : LpEnv K) (penalty f : K) (c : Nat → K) : K :=
  f + penalty * ∑ i ∈ Finset.range e.numCons, viol (c i) (e.bounds.consLb.value i) (e.bounds.consUb.value i)

/-- the penalty function at the trial point of a decision, for given objective and constraints -/
def TrialDecision.penaltyAt (d : TrialDecision K) (e : LpEnv K) (penalty : K) (func : Vec K → K × Vec K) : K :=
  e.penaltyFn penalty (func d.trial.point).1 (func d.trial.point).2.value

end Sleqp

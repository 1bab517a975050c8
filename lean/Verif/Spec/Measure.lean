import Verif.Model.Measure
import Verif.Spec.DirectionEps

/-!
What the figures about a trial point should be, in terms of ordinary vectors and matrices.
-/

namespace Sleqp
variable {K : Type*} [Field K] [LinearOrder K] {n m : Nat}
open Matrix

/-- total violation of the constraint values `c` -/
def LocalModel.violAt (q : LocalModel n m K) (c : Fin m → K) : K := ∑ i, Sleqp.viol (c i) (q.lb i) (q.ub i)

/-- the penalty function at a point with objective value `t` and constraint values `c` -/
def LocalModel.meritAt (q : LocalModel n m K) (t : K) (c : Fin m → K) : K := t + q.penalty * q.violAt c

/-- curvature of a function along `d`: its deviation from the linear model relative to `‖d‖² / 2` -/
def deviation (linear actual : K) (d : Fin n → K) : K := 2 * (linear - actual) / (d ⬝ᵥ d)

/-- the measure belongs to the problem of the merit functions -/
structure MeasureFor (e : MeritEnv K) (s : Measure K) : Prop where
  num : s.numCons = e.numCons
  lb : s.consLb = e.consLb
  ub : s.consUb = e.consUb
  eps : s.zeroEps = e.zeroEps

end Sleqp

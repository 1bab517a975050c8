import Mathlib.Data.Matrix.Mul
import Verif.Model.Direction
import Verif.Spec.Bfgs
import Verif.Spec.Feas
import Verif.Spec.Vec

/-!
What the parts of a direction stand for, and the exact penalty model, in terms of ordinary vectors and matrices.
-/

namespace Sleqp
variable {K : Type*} [Field K] [LinearOrder K]
open Matrix

/-- data of the local model: objective value and gradient, constraint values and Jacobian with their bounds, Hessian and penalty -/
structure LocalModel (n m : Nat) (K : Type*) where
  f : K
  g : Fin n → K
  c : Fin m → K
  J : Matrix (Fin m) (Fin n) K
  H : Matrix (Fin n) (Fin n) K
  lb : Fin m → K
  ub : Fin m → K
  penalty : K

variable {n m : Nat}

/-- total violation of the linearised constraints at the step `d` -/
def LocalModel.viol (q : LocalModel n m K) (d : Fin n → K) : K := ∑ i, Sleqp.viol (q.c i + (q.J *ᵥ d) i) (q.lb i) (q.ub i)

/-- the linear model of the penalty function at the step `d` -/
def LocalModel.lin (q : LocalModel n m K) (d : Fin n → K) : K := q.f + q.g ⬝ᵥ d + q.penalty * q.viol d

/-- the quadratic model of the penalty function at the step `d` -/
def LocalModel.quad (q : LocalModel n m K) (d : Fin n → K) : K := q.lin d + 1 / 2 * (d ⬝ᵥ q.H *ᵥ d)

/-- the direction `D` stands for the step `d`: all four parts belong to it -/
structure DirFor (q : LocalModel n m K) (D : Dir K) (d : Fin n → K) : Prop where
  okP : D.primal.WF ∧ D.primal.dim = n
  okC : D.consJac.WF ∧ D.consJac.dim = m
  okH : D.hess.WF ∧ D.hess.dim = n
  primal : dense n D.primal = d
  grad : D.objGrad = q.g ⬝ᵥ d
  jac : dense m D.consJac = q.J *ᵥ d
  hess : dense n D.hess = q.H *ᵥ d

/-- the environment of the merit functions carries the data of the local model -/
structure EnvFor (q : LocalModel n m K) (e : MeritEnv K) : Prop where
  num : e.numCons = m
  f : e.objVal = q.f
  okC : e.cons.WF ∧ e.cons.dim = m
  okL : e.consLb.WF ∧ e.consLb.dim = m
  okU : e.consUb.WF ∧ e.consUb.dim = m
  c : dense m e.cons = q.c
  lb : dense m e.consLb = q.lb
  ub : dense m e.consUb = q.ub
  le : ∀ i, q.lb i ≤ q.ub i
  pen : e.penalty = q.penalty
  eps : e.zeroEps = 0

end Sleqp

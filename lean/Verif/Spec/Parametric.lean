import Verif.Model.Parametric
import Verif.Props.Direction

/-!
Specification for C79: the search for the trust radius of the linear programs.

`q` is the local model of the penalty function (linear part and Hessian), `sol r` the solution of the linear program for radius `r`.
-/

namespace Sleqp
variable {K : Type*} [Field K] [LinearOrder K]
variable {n m : Nat}
open Matrix

/-- `sol r` minimises the linear model among the steps of size at most `r` which keep the variables within their bounds -/
structure LpFamily (q : LocalModel n m K) (Bounds : (Fin n → K) → Prop) (sol : K → Fin n → K) : Prop where
  zero : Bounds 0
  bounds : ∀ r, 0 ≤ r → Bounds (sol r)
  within : ∀ r, 0 ≤ r → ∀ i, |sol r i| ≤ r
  best : ∀ r, 0 ≤ r → ∀ d, Bounds d → (∀ i, |d i| ≤ r) → q.lin (sol r) ≤ q.lin d

/-- the step achieves the fraction `η` of the decrease which the linear model predicts -/
def SuffDecrease (q : LocalModel n m K) (η : K) (d : Fin n → K) : Prop := η * (q.quad 0 - q.lin d) ≤ q.quad 0 - q.quad d

/-- the environment of the search carries the data of the local model, and its linear programs have the solutions `sol` -/
structure ParFor (q : LocalModel n m K) (sol : K → Fin n → K) (e : ParEnv K) : Prop where
  merits : EnvFor q e.merits
  okG : e.grad.WF ∧ e.grad.dim = n
  grad : dense n e.grad = q.g
  okJ : e.jac.WF ∧ e.jac.numCols = n
  jac : ∀ i j, e.jac.value (i : Fin m).val (j : Fin n).val = q.J i j
  hess : HessFor q e.hp
  step : ∀ r, ∀ t : Vec K, t.WF → t.dim = n → ∃ s, e.step r t = some s ∧ (s.WF ∧ s.dim = n) ∧ dense n s = sol r

/-- a direction which can be overwritten -/
structure DirStore (n m : Nat) (D : Dir K) : Prop where
  okP : D.primal.WF ∧ D.primal.dim = n
  okC : D.consJac.WF ∧ D.consJac.dim = m
  okH : D.hess.WF ∧ D.hess.dim = n

end Sleqp

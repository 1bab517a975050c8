import Verif.Spec.Parametric
import Verif.Spec.DirectionEps

/-! Specification for C79 with any drop tolerance. -/

namespace Sleqp
variable {K : Type*} [Field K] [LinearOrder K]
variable {n m : Nat}
open Matrix

/-- the environment of the search carries the data of the local model, with any drop tolerance, and its linear programs have the solutions `sol` -/
structure ParNear (q : LocalModel n m K) (sol : K → Fin n → K) (e : ParEnv K) : Prop where
  merits : EnvNear q e.merits
  okG : e.grad.WF ∧ e.grad.dim = n
  grad : dense n e.grad = q.g
  okJ : e.jac.WF ∧ e.jac.numCols = n
  jac : ∀ i j, e.jac.value (i : Fin m).val (j : Fin n).val = q.J i j
  hess : HessFor q e.hp
  step : ∀ r, ∀ t : Vec K, t.WF → t.dim = n → ∃ s, e.step r t = some s ∧ (s.WF ∧ s.dim = n) ∧ dense n s = sol r

/-- the error of merit values caused by dropping: penalty parameter times number of constraints times twice the tolerance -/
def ParEnv.err (q : LocalModel n m K) (e : ParEnv K) : K := q.penalty * (m * (e.merits.zeroEps + e.merits.zeroEps))

/-- the step achieves the fraction `η` of the decrease which the linear model predicts, up to an error `E` of the merit values -/
def SuffUpTo (q : LocalModel n m K) (η E : K) (d : Fin n → K) : Prop :=
  η * (q.quad 0 - q.lin d) ≤ q.quad 0 - q.quad d + |1 - η| * E

/-- the step achieves the fraction `η` of the decrease which the linear model predicts, even if merit values are wrong by `E` -/
def SuffDespite (q : LocalModel n m K) (η E : K) (d : Fin n → K) : Prop :=
  η * (q.quad 0 - q.lin d) + |1 - η| * E ≤ q.quad 0 - q.quad d

end Sleqp

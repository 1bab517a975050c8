import Verif.Spec.Direction
import Verif.Spec.DerivCheck
import Verif.Model.WorkingSet

/-! Specification of the checks of steps: what a step has to fulfil to pass. -/

namespace Sleqp
variable {K : Type*} [Field K] [LinearOrder K] {n m : Nat}
open Matrix

/-- a number of magnitude at most `eps` is taken as zero -/
def cutSmall (eps x : K) : K := if |x| ≤ eps then 0 else x

/-- the derivative parts of the direction agree, up to the relative tolerance, with the products of its step with
gradient, Jacobian and Hessian of the local model -/
structure PartsAgree (q : LocalModel n m K) (D : Dir K) (zeroEps tol : K) : Prop where
  grad : Close tol (dense n D.primal ⬝ᵥ q.g) D.objGrad
  jac : ∀ i, Close tol (cutSmall zeroEps ((q.J *ᵥ dense n D.primal) i)) (dense m D.consJac i)
  hess : ∀ i, Close tol ((q.H *ᵥ dense n D.primal) i) (dense n D.hess i)

/-- the step `d` keeps the active constraint `i` at its bound(s), up to the relative tolerance -/
def KeepsActive (q : LocalModel n m K) (w : WSet) (eps : K) (d : Fin n → K) (i : Fin m) : Prop :=
  (w.consState i = .lower ∨ w.consState i = .both → Close eps (q.c i + (q.J *ᵥ d) i) (q.lb i)) ∧
  (w.consState i = .upper ∨ w.consState i = .both → Close eps (q.c i + (q.J *ᵥ d) i) (q.ub i))

end Sleqp

import Verif.Spec.AugJac
import Verif.Spec.WorkingSet
import Verif.Spec.Vec
import Verif.Spec.Direction
import Verif.Model.Feas

/-! Specification of the projections and of the model used by the Newton step. -/

namespace Sleqp
open Matrix
variable {K : Type*} [Field K] [LinearOrder K] {n m : Nat}

/-- `proj` returns orthogonal projections onto the null space of the gradients of the active entries
(what C66 and C67 prove of the augmented Jacobian) -/
def NullService (proj : Vec K → Vec K → Option (Vec K)) (n : Nat) (l : List WEntry) (J : Nat → Nat → K) : Prop :=
  ∀ rhs r : Vec K, rhs.WF → rhs.dim = n →
    ∃ v, proj rhs r = some v ∧ v.WF ∧ v.dim = n ∧ IsProjection n l.length (workMat l J) rhs.value v.value

/-- iterate and bounds carry the data of the local model -/
structure IterFor (q : LocalModel n m K) (p : Bounds K) (it : Iterate K) : Prop where
  g : dense n it.objGrad = q.g
  c : dense m it.consVal = q.c
  J : ∀ (i : Fin m) (j : Fin n), it.consJac.value i j = q.J i j
  lb : dense m p.consLb = q.lb
  ub : dense m p.consUb = q.ub

/-- the quadratic model with the violation of the constraints replaced by the linear function with
slopes `mu` -/
def LocalModel.eqp (q : LocalModel n m K) (mu : Fin m → K) (d : Fin n → K) : K :=
  q.f + q.g ⬝ᵥ d + q.penalty * (mu ⬝ᵥ q.J *ᵥ d) + 1 / 2 * (d ⬝ᵥ q.H *ᵥ d)

/-- a value moves from `a` to `b` without crossing the bounds -/
def SameSide (a b lb ub : K) : Prop := (lb ≤ a ∧ a ≤ ub ∧ lb ≤ b ∧ b ≤ ub) ∨ (ub < a ∧ ub ≤ b) ∨ (a < lb ∧ b ≤ lb)

end Sleqp

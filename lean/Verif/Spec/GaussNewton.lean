import Verif.Model.GaussNewton
import Verif.Spec.Newton

/-! The problem solved by the Gauss-Newton step, in terms of ordinary vectors and matrices. -/

namespace Sleqp
open Matrix
variable {K : Type*} [Field K] [LinearOrder K] {n m R : Nat}

/-- the distances of the linearised constraints to the bounds they violate: to the upper bound if
`mu` is positive, to the lower bound otherwise -/
def LocalModel.gap (q : LocalModel n m K) (mu : Fin m → K) (d : Fin n → K) : Fin m → K :=
  fun i => q.c i + (q.J *ᵥ d) i - if 0 < mu i then q.ub i else q.lb i

/-- squared norm of the linearised residuals plus squared penalty times squared gaps of the constraints with `mu` different
from zero -/
def gnVal (q : LocalModel n m K) (r : Fin R → K) (Jr : Matrix (Fin R) (Fin n) K) (mu : Fin m → K) (d : Fin n → K) : K :=
  (r + Jr *ᵥ d) ⬝ᵥ (r + Jr *ᵥ d) + q.penalty ^ 2 * ∑ i, mu i ^ 2 * q.gap mu d i ^ 2

/-- half of its gradient -/
def gnGrad (q : LocalModel n m K) (r : Fin R → K) (Jr : Matrix (Fin R) (Fin n) K) (mu : Fin m → K) (d : Fin n → K) : Fin n → K :=
  Jrᵀ *ᵥ (r + Jr *ᵥ d) + q.penalty ^ 2 • (q.Jᵀ *ᵥ fun i => mu i ^ 2 * q.gap mu d i)

/-- the callbacks supply the residuals `r` and products with their Jacobian `Jr` and its transpose,
projections onto the null space of the active gradients and products with the Hessian; the square
root is exact and no small entries are dropped -/
structure GnFor (q : LocalModel n m K) (r : Fin R → K) (Jr : Matrix (Fin R) (Fin n) K) (l : List WEntry) (J : Nat → Nat → K)
    (e : GnEnv K) : Prop where
  nv : e.numVars = n
  nc : e.numCons = m
  nr : e.numRes = R
  res : ∀ t : Vec K, t.dim = R → ∃ v, e.residuals t = some v ∧ (v.WF ∧ v.dim = R) ∧ dense R v = r
  fwd : ∀ d t : Vec K, d.WF ∧ d.dim = n → t.dim = R → ∃ v, e.jacFwd d t = some v ∧ (v.WF ∧ v.dim = R) ∧ dense R v = Jr *ᵥ dense n d
  adj : ∀ d t : Vec K, d.WF ∧ d.dim = R → t.dim = n → ∃ v, e.jacAdj d t = some v ∧ (v.WF ∧ v.dim = n) ∧ dense n v = Jrᵀ *ᵥ dense R d
  proj : NullService e.proj n l J
  hp : ∀ d t : Vec K, d.WF ∧ d.dim = n → ∃ v, e.hp d t = some v ∧ (v.WF ∧ v.dim = n) ∧ dense n v = q.H *ᵥ dense n d
  sqrt : ∀ x : K, 0 ≤ x → 0 ≤ e.sqrt x ∧ e.sqrt x * e.sqrt x = x
  zeroEps : e.zeroEps = 0
  statTol : 0 ≤ e.statTol

/-- the vectors of the solver have the sizes given to them in `gauss_newton_solver_create`,
gauss_newton.c:92-189 -/
structure GnMem.Sized (n R : Nat) (s : GnMem K) : Prop where
  lsqResiduals : s.lsqResiduals.dim = R
  fwdLsq : s.fwdLsq.dim = R
  adjLsqDir : s.adjLsqDir.dim = R
  adjLsq : s.adjLsq.dim = n
  adjCons : s.adjCons.dim = n
  sol : s.sol.dim = n

end Sleqp

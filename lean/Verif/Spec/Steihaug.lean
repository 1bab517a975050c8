import Mathlib.Data.Matrix.Mul
import Verif.Model.Steihaug
import Verif.Spec.Bfgs
import Verif.Spec.Vec

/-!
The trust-region subproblem in terms of ordinary vectors and matrices: minimise `g · p + ½ p · B p` over all `p` in the range of the
projection `P` with norm at most the radius.
-/

namespace Sleqp
variable {K : Type*} [Field K] [LinearOrder K]
open Matrix

/-- gradient, Hessian and projection -/
structure TrProblem (n : Nat) (K : Type*) where
  g : Fin n → K
  B : Matrix (Fin n) (Fin n) K
  P : Matrix (Fin n) (Fin n) K

variable {n : Nat}

/-- value of the quadratic model -/
def TrProblem.val (q : TrProblem n K) (p : Fin n → K) : K := q.g ⬝ᵥ p + 1 / 2 * (p ⬝ᵥ q.B *ᵥ p)

/-- the Hessian is symmetric and `P` an orthogonal projection -/
structure TrProblem.Valid (q : TrProblem n K) : Prop where
  symm : q.Bᵀ = q.B
  projSymm : q.Pᵀ = q.P
  proj : q.P * q.P = q.P

/-- the callbacks and settings of the solver belong to the problem; the cut-off for small entries is zero -/
structure TrFor (q : TrProblem n K) (e : TrEnv K) (grad : Vec K) : Prop where
  gradOk : grad.WF ∧ grad.dim = n
  gradQ : dense n grad = q.g
  work : e.work.dim = n
  hp : ∀ d r : Vec K, d.WF ∧ d.dim = n → ∃ h, e.hp d r = some h ∧ (h.WF ∧ h.dim = n) ∧ dense n h = q.B *ᵥ dense n d
  proj : ∀ d r : Vec K, d.WF ∧ d.dim = n → ∃ h, e.proj d r = some h ∧ (h.WF ∧ h.dim = n) ∧ dense n h = q.P *ᵥ dense n d
  sqrt : ∀ x : K, 0 ≤ x → 0 ≤ e.sqrt x ∧ e.sqrt x * e.sqrt x = x
  zeroEps : e.zeroEps = 0

end Sleqp

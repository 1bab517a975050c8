import Mathlib.Data.Matrix.Mul
import Verif.Model.Lsqr
import Verif.Spec.Bfgs
import Verif.Spec.Vec

/-!
The least-squares problem in terms of ordinary vectors and matrices: minimise `|b - A x|²` over all `x` with norm at most the radius.
-/

namespace Sleqp
variable {K : Type*} [Field K] [LinearOrder K]
variable {n m : Nat}
open Matrix

/-- twice the objective -/
def lsqVal (A : Matrix (Fin m) (Fin n) K) (b : Fin m → K) (x : Fin n → K) : K := (b - A *ᵥ x) ⬝ᵥ (b - A *ᵥ x)

/-- the negative gradient of the objective -/
def lsqGrad (A : Matrix (Fin m) (Fin n) K) (b : Fin m → K) (x : Fin n → K) : Fin n → K := Aᵀ *ᵥ (b - A *ᵥ x)

/-- the callbacks multiply with `A` and its transpose, the square root is exact and no small entries are dropped -/
structure LsqrFor (A : Matrix (Fin m) (Fin n) K) (e : LsqrEnv K) : Prop where
  fdim : e.fdim = n
  adim : e.adim = m
  fwd : ∀ d r : Vec K, d.WF ∧ d.dim = n → r.dim = m → ∃ h, e.fwd d r = some h ∧ (h.WF ∧ h.dim = m) ∧ dense m h = A *ᵥ dense n d
  adj : ∀ d r : Vec K, d.WF ∧ d.dim = m → r.dim = n → ∃ h, e.adj d r = some h ∧ (h.WF ∧ h.dim = n) ∧ dense n h = Aᵀ *ᵥ dense m d
  sqrt : ∀ x : K, 0 ≤ x → 0 ≤ e.sqrt x ∧ e.sqrt x * e.sqrt x = x
  zeroEps : e.zeroEps = 0
  relTol : 0 ≤ e.relTol

end Sleqp

import Verif.Model.DerivCheck
import Verif.Spec.Bfgs
import Verif.Spec.Mat
import Mathlib.Data.Matrix.Mul

/-!
Specification of the derivative check: what is compared with what.  The functions are those of the user,
with the derivatives the user's callbacks claim.
-/

namespace Sleqp
variable {K : Type*} [Field K] [LinearOrder K] {n m : Nat}

/-- objective, constraints, the derivatives claimed for them, and the points the function refuses -/
structure DerivData (n m : Nat) (K : Type*) where
  f : (Fin n → K) → K
  g : (Fin n → K) → Fin n → K
  c : (Fin n → K) → Fin m → K
  J : (Fin n → K) → Fin m → Fin n → K
  /-- Hessian of the Lagrangian for the multipliers given -/
  H : (Fin n → K) → (Fin m → K) → Matrix (Fin n) (Fin n) K
  rejects : (Fin n → K) → Bool

/-- equality up to a relative tolerance: the difference is at most `tol` times the larger of 1 and the
magnitudes of the two numbers -/
def Close (tol a b : K) : Prop := |a - b| ≤ tol * max (max |a| |b|) 1

/-- the point moved along coordinate `j` -/
def shift (x : Fin n → K) (j : Fin n) (t : K) : Fin n → K := x + Pi.single j t

/-- step of the finite difference for coordinate `j` -/
def diffStep (p : K) (x : Fin n → K) (j : Fin n) : K := max |x j| 1 * p

/-- forward difference of `φ` along coordinate `j` -/
def forwardDiff (φ : (Fin n → K) → K) (x : Fin n → K) (j : Fin n) (h : K) : K := (φ (shift x j h) - φ x) / h

/-- entry `k` of the gradient of the Lagrangian -/
def DerivData.lagr (d : DerivData n m K) (mu : Fin m → K) (k : Fin n) (x : Fin n → K) : K :=
  d.g x k + ∑ i, d.J x i k * mu i

/-- the derivatives with respect to variable `j` agree with forward differences, for the kinds of
derivatives asked for.  First derivatives are those at `x`, second derivatives those at the point `y`. -/
structure DerivOk (d : DerivData n m K) (tol : K) (fl : DcFlags) (x y : Fin n → K) (mu : Fin m → K) (j : Fin n) (h : K) : Prop where
  firstObj : fl.firstObj = true → Close tol (d.g x j) (forwardDiff d.f x j h)
  firstCons : fl.firstCons = true → ∀ i, Close tol (d.J x i j) (forwardDiff (fun z => d.c z i) x j h)
  secondObj : fl.secondObj = true → ∀ k, Close tol (d.H y 0 k j) (forwardDiff (fun z => d.g z k) x j h)
  secondCons : fl.secondCons = true → ∀ i k,
    Close tol (d.H y (Pi.single i 1) k j - d.H y 0 k j) (forwardDiff (fun z => d.J z i k) x j h)
  secondSimple : fl.secondSimple = true → ∀ k, Close tol (d.H y mu k j) (forwardDiff (d.lagr mu k) x j h)

/-- the callbacks compute the functions of `d` -/
structure DcFor (e : DcEnv K) (d : DerivData n m K) : Prop where
  vars : e.numVars = n
  cons' : e.numCons = m
  rejects : ∀ x, x.WF → x.dim = n → e.rejects x = d.rejects (dense n x)
  obj : ∀ x, x.WF → x.dim = n → e.obj x = d.f (dense n x)
  grad : ∀ x r, x.WF → x.dim = n → r.dim = n → ∃ g, e.grad x r = some g ∧ g.WF ∧ g.dim = n ∧ dense n g = d.g (dense n x)
  cons : ∀ x r, x.WF → x.dim = n → r.dim = m → ∃ c, e.cons x r = some c ∧ c.WF ∧ c.dim = m ∧ dense m c = d.c (dense n x)
  jac : ∀ x r, x.WF → x.dim = n → r.numRows = m → r.numCols = n →
    ∃ J, e.jac x r = some J ∧ J.WF ∧ J.numRows = m ∧ J.numCols = n ∧ ∀ (i : Fin m) (k : Fin n), J.value i k = d.J (dense n x) i k
  hess : ∀ x v mu r, x.WF → x.dim = n → v.WF → v.dim = n → mu.WF → mu.dim = m → r.dim = n →
    ∃ p, e.hess x v mu r = some p ∧ p.WF ∧ p.dim = n ∧ dense n p = (d.H (dense n x) (dense m mu)).mulVec (dense n v)

/-- the iterate holds the values of the functions of `d` at its point -/
structure IterateAt (d : DerivData n m K) (it : Iterate K) : Prop where
  primal : it.primal.WF
  primal_dim : it.primal.dim = n
  objVal : it.objVal = d.f (dense n it.primal)
  objGrad : it.objGrad.WF
  objGrad_dim : it.objGrad.dim = n
  objGrad_eq : dense n it.objGrad = d.g (dense n it.primal)
  consVal : it.consVal.WF
  consVal_dim : it.consVal.dim = m
  consVal_eq : dense m it.consVal = d.c (dense n it.primal)
  consJac : it.consJac.WF
  consJac_rows : it.consJac.numRows = m
  consJac_cols : it.consJac.numCols = n
  consJac_eq : ∀ (i : Fin m) (k : Fin n), it.consJac.value i k = d.J (dense n it.primal) i k
  consDual : it.consDual.WF
  consDual_dim : it.consDual.dim = m

/-- an iterate with vectors and a matrix of the right dimensions -/
structure IterateDims (n m : Nat) (it : Iterate K) : Prop where
  primal : it.primal.dim = n
  objGrad : it.objGrad.dim = n
  consVal : it.consVal.dim = m
  rows : it.consJac.numRows = m
  cols : it.consJac.numCols = n

end Sleqp

import Verif.Spec.Direction
import Verif.Lemmas.QnVec

/-!
Directions and merit functions for any drop tolerance (C62, C63, C43): entries of size at most `zero_eps` are left out of sums and of products with the Jacobian, so
that the parts of a direction belong to its step up to errors, and sequences of operations on directions.
-/

namespace Sleqp
variable {K : Type*} [Field K] [LinearOrder K]
open Matrix

/-- bounds on the errors of step, gradient product, Jacobian product (each entry) and Hessian product (each entry) -/
structure DirErr (K : Type*) where
  p : K
  g : K
  c : K
  h : K

variable {n m : Nat}

/-- the parts of the direction `D` belong to the step `d`, up to the errors -/
structure DirNear (q : LocalModel n m K) (D : Dir K) (d : Fin n → K) (δ : DirErr K) : Prop where
  okP : D.primal.WF ∧ D.primal.dim = n
  okC : D.consJac.WF ∧ D.consJac.dim = m
  okH : D.hess.WF ∧ D.hess.dim = n
  primal : ∀ i, |dense n D.primal i - d i| ≤ δ.p
  grad : |D.objGrad - q.g ⬝ᵥ d| ≤ δ.g
  jac : ∀ i, |dense m D.consJac i - (q.J *ᵥ d) i| ≤ δ.c
  hess : ∀ i, |dense n D.hess i - (q.H *ᵥ d) i| ≤ δ.h

/-- the environment of the merit functions carries the data of the local model, with any drop tolerance -/
structure EnvNear (q : LocalModel n m K) (e : MeritEnv K) : Prop where
  data : EnvFor q { e with zeroEps := 0 }
  eps : 0 ≤ e.zeroEps

/-- operations on a store of directions: a new step is copied into a direction and the products are computed; scaling; zero; combination; copy -/
inductive DirOp (K : Type*) where
  | reset (k : Nat) (step : Vec K)
  | scale (k : Nat) (f : K)
  | zero (k : Nat)
  | combine (i j : Nat) (f g : K) (r : Nat)
  | copy (i r : Nat)

/-- the results are stored in other directions -/
def DirOp.Ok (n : Nat) : DirOp K → Prop
  | .reset _ v => v.WF ∧ v.dim = n
  | .combine i j _ _ r => r ≠ i ∧ r ≠ j
  | _ => True

/-- replace one element of the store -/
def putAt {α : Type*} (s : Nat → α) (k : Nat) (a : α) : Nat → α := fun i => if i = k then a else s i

/-- the operation, with the functions of the library -/
def DirOp.run (numCons : Nat) (grad : Vec K) (jac : Mat K) (hp : Vec K → Vec K → Option (Vec K)) (eps : K) (s : Nat → Dir K) :
    DirOp K → Option (Nat → Dir K)
  | .reset k v => (v.copy (s k).primal).bind fun p => (({ s k with primal := p } : Dir K).reset numCons grad jac hp eps).map (putAt s k)
  | .scale k f => some (putAt s k ((s k).scale f))
  | .zero k => some (putAt s k (s k).setZero)
  | .combine i j f g r => ((s i).addScaled (s j) f g eps (s r)).map (putAt s r)
  | .copy i r => ((s i).copy (s r)).map (putAt s r)

/-- the same operation on steps -/
def DirOp.steps (n : Nat) (s : Nat → Fin n → K) : DirOp K → Nat → Fin n → K
  | .reset k v => putAt s k (dense n v)
  | .scale k f => putAt s k (f • s k)
  | .zero k => putAt s k 0
  | .combine i j f g r => putAt s r (f • s i + g • s j)
  | .copy i r => putAt s r (s i)

/-- the errors it causes and passes on -/
def DirOp.errs (eps : K) (s : Nat → DirErr K) : DirOp K → Nat → DirErr K
  | .reset k _ => putAt s k ⟨0, 0, eps, 0⟩
  | .scale k f => putAt s k ⟨|f| * (s k).p, |f| * (s k).g, |f| * (s k).c, |f| * (s k).h⟩
  | .zero k => putAt s k ⟨0, 0, 0, 0⟩
  | .combine i j f g r => putAt s r ⟨|f| * (s i).p + |g| * (s j).p + eps, |f| * (s i).g + |g| * (s j).g, |f| * (s i).c + |g| * (s j).c + eps,
      |f| * (s i).h + |g| * (s j).h + eps⟩
  | .copy i r => putAt s r (s i)

end Sleqp

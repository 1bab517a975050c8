import Verif.Model.Vec

/-!
Model of `/repo/src/main/lsq.c`: nonlinear least-squares objective functions.

The user's callbacks are parameters.  A callback that fills a vector receives the
vector (cleared by the caller) and returns it filled; `none` is a failed assertion
while filling it (e.g. a push beyond the capacity).  `P` is the type of points.
Timers and return codes of failing callbacks are not modelled: histories consist of
callbacks returning `SLEQP_OKAY`.
-/

namespace Sleqp
variable {P K : Type*}

/-- `SleqpLSQCallbacks`, pub_lsq.h, with the dimensions passed to
`sleqp_lsq_func_create` and the counts reported by the `lsq_nonzeros` callback
(`none` = `SLEQP_NONE`). -/
structure LsqUser (P K : Type*) where
  numVars : Nat
  numRes : Nat
  resid : P → Vec K → Option (Vec K)
  fwd : P → Vec K → Vec K → Option (Vec K)
  adj : P → Vec K → Vec K → Option (Vec K)
  residNnz : Option Nat
  fwdNnz : Option Nat
  adjNnz : Option Nat

/-- `SleqpLSQData`, lsq.c:14-40, and the point the user was last moved to. -/
structure Lsq (P K : Type*) where
  point : P
  hasResidual : Bool
  residual : Vec K
  forward : Vec K
  hessProd : Vec K
  lm : K
  zeroEps : K

namespace Lsq
variable [Field K] [LinearOrder K]

/-- `sleqp_vec_reserve` if the count is not `SLEQP_NONE` -/
def reserveOpt (v : Vec K) : Option Nat → Vec K
  | none => v
  | some n => v.reserve n

/-- `sleqp_lsq_func_create`, lsq.c:297-370: assert `lm_factor >= 0`, empty vectors,
`lsq_hess_prod` reserved only for a nonzero factor.  `p0` stands for the user's
state before the first evaluation. -/
def create (u : LsqUser P K) (p0 : P) (lm zeroEps : K) : Option (Lsq P K) :=
  if 0 ≤ lm then
    some { point := p0, hasResidual := false,
           residual := Vec.create u.numRes 0, forward := Vec.create u.numRes 0,
           hessProd := (if lm ≠ 0 then (Vec.create u.numVars 0).reserve u.numVars
                        else Vec.create u.numVars 0),
           lm := lm, zeroEps := zeroEps }
  else none

/-- `lsq_func_nonzeros`, lsq.c:66-119: reserves the internal vectors (note that
`lsq_hess_prod` is reserved with the *forward* count). -/
def nonzeros (u : LsqUser P K) (s : Lsq P K) : Lsq P K :=
  { s with residual := reserveOpt s.residual u.residNnz,
           forward := reserveOpt s.forward u.fwdNnz,
           hessProd := reserveOpt s.hessProd u.fwdNnz }

/-- the product count reported by `lsq_func_nonzeros`, lsq.c:66-119: the forward
count. -/
def hessNnz (u : LsqUser P K) : Option Nat := u.fwdNnz

/-- the gradient count reported by `lsq_func_nonzeros`, lsq.c:66-119. -/
def gradNnz (u : LsqUser P K) : Option Nat := u.adjNnz

/-- `lsq_func_set_value`, lsq.c:47-64. -/
def setValue (s : Lsq P K) (p : P) : Lsq P K := { s with point := p, hasResidual := false }

/-- `compute_lsq_residual`, lsq.c:121-142. -/
def computeResidual (u : LsqUser P K) (s : Lsq P K) : Option (Lsq P K) :=
  if s.hasResidual then some s
  else (u.resid s.point s.residual.clear).map fun r => { s with residual := r, hasResidual := true }

/-- `sleqp_lsq_func_jac_forward`, lsq.c:450-479. -/
def jacForward (u : LsqUser P K) (s : Lsq P K) (d product : Vec K) : Option (Vec K) :=
  if d.dim = u.numVars ∧ product.dim = u.numRes then u.fwd s.point d product.clear else none

/-- `sleqp_lsq_func_jac_adjoint`, lsq.c:481-510. -/
def jacAdjoint (u : LsqUser P K) (s : Lsq P K) (d product : Vec K) : Option (Vec K) :=
  if d.dim = u.numRes ∧ product.dim = u.numVars then u.adj s.point d product.clear else none

/-- `lsq_func_obj_val`, lsq.c:144-154. -/
def objVal (u : LsqUser P K) (s : Lsq P K) : Option (K × Lsq P K) :=
  (computeResidual u s).map fun s => ((1 / 2) * s.residual.normSq, s)

/-- `lsq_func_obj_grad`, lsq.c:156-169. -/
def objGrad (u : LsqUser P K) (s : Lsq P K) (grad : Vec K) : Option (Vec K × Lsq P K) :=
  (computeResidual u s).bind fun s =>
    (jacAdjoint u s s.residual grad.clear).map fun g => (g, s)

/-- `compute_lsq_hess_prod`, lsq.c:211-224. -/
def jtj (u : LsqUser P K) (s : Lsq P K) (d dest : Vec K) : Option (Vec K × Lsq P K) :=
  (jacForward u s d s.forward).bind fun f =>
    (jacAdjoint u s f dest).map fun r => (r, { s with forward := f })

/-- `lsq_func_hess_product`, lsq.c:226-263 (the constraint multipliers are
ignored by the code). -/
def hessProduct (u : LsqUser P K) (s : Lsq P K) (d product : Vec K) :
    Option (Vec K × Lsq P K) :=
  let s1 := { s with forward := s.forward.clear, hessProd := s.hessProd.clear }
  if s.lm ≠ 0 then
    (jtj u s1 d s1.hessProd).bind fun q =>
      (Vec.addScaled q.1 d 1 s.lm s.zeroEps product).map fun r =>
        (r, { q.2 with hessProd := q.1 })
  else jtj u s1 d product

/-- `sleqp_lsq_func_residuals`, lsq.c:432-448. -/
def residuals (u : LsqUser P K) (s : Lsq P K) (out : Vec K) : Option (Vec K × Lsq P K) :=
  if out.dim = u.numRes then
    (computeResidual u s).bind fun s => (Vec.copy s.residual out).map fun r => (r, s)
  else none

/-- `sleqp_lsq_func_set_lm_factor`, lsq.c:562-574: no check of the sign. -/
def setLm (s : Lsq P K) (lm : K) : Lsq P K := { s with lm := lm }

/-- one call on the function object, results discarded -/
inductive Op (P K : Type*)
  | setValue (p : P)
  | objVal
  | objGrad (dest : Vec K)
  | hess (d dest : Vec K)
  | residuals (dest : Vec K)
  | setLm (lm : K)
  | nonzeros

/-- effect of one call -/
def step (u : LsqUser P K) (s : Lsq P K) : Op P K → Option (Lsq P K)
  | .setValue p => some (s.setValue p)
  | .objVal => (objVal u s).map Prod.snd
  | .objGrad g => (objGrad u s g).map Prod.snd
  | .hess d g => (hessProduct u s d g).map Prod.snd
  | .residuals g => (residuals u s g).map Prod.snd
  | .setLm l => some (s.setLm l)
  | .nonzeros => some (nonzeros u s)

/-- a history of calls -/
def run (u : LsqUser P K) : Lsq P K → List (Op P K) → Option (Lsq P K)
  | s, [] => some s
  | s, o :: os => (step u s o).bind fun s => run u s os

end Lsq
end Sleqp

import Verif.Model.Lsq
import Verif.Model.Mat
import Verif.Model.Feas

/-!
Model of `/repo/src/main/restoration.c`: the feasibility-restoration problem
`min ½ |c(x) - s|²` over the lifted point `(x, s)` within the lifted bounds, and of
the way `/repo/src/main/solver/phase.c` starts a restoration phase.

Simplification: the work vectors of `FuncData` are cleared and reserved before each
use, so their previous contents do not matter and they are modelled as fresh vectors
of the right dimension (their capacity in the code is at least the modelled one).
-/

namespace Sleqp
variable {K : Type*}

section Structural

/-- one pass of the loop of `split_primal`, restoration.c:34-65 -/
def splitStep (vs : Vec K × Vec K) (e : Nat × K) : Option (Vec K × Vec K) :=
  if e.1 < vs.1.dim then (vs.1.push e.1 e.2).map fun v => (v, vs.2)
  else (vs.2.push (e.1 - vs.1.dim) e.2).map fun c => (vs.1, c)

/-- `split_primal`, restoration.c:34-65, into vectors of dimension `n` and `m`. -/
def splitPrimal (n m : Nat) (primal : Vec K) : Option (Vec K × Vec K) :=
  primal.ents.foldlM splitStep
    ((Vec.create n 0).reserve (min primal.nnz n), (Vec.create m 0).reserve (min primal.nnz m))

/-- `concat_adjoint`, restoration.c:220-248. -/
def concatAdjoint [Neg K] (product direction result : Vec K) : Option (Vec K) :=
  let r := (result.clear).reserve (min (product.nnz + direction.nnz) result.dim)
  (r.pushAll product.ents).bind fun r =>
    r.pushAll (direction.ents.map fun e => (e.1 + product.dim, -e.2))

/-- `sleqp_restoration_problem_restore`, restoration.c:571-599: the entries before the
first index `≥ num_variables`. -/
def restRestore (n m : Nat) (input result : Vec K) : Option (Vec K) :=
  if input.dim = n + m ∧ result.dim = n then
    ((result.clear).reserve (min input.dim n)).pushAll
      (input.ents.takeWhile fun e => decide (e.1 < n))
  else none

end Structural

variable [Field K] [LinearOrder K]

/-- value pushed by `sleqp_restoration_problem_transform` (restoration.c:541-550): the
constraint value clipped to its bounds, at the shifted index, if it is not `0` -/
def liftVal (n : Nat) (t : Nat × Option K × Option K × Option K) : Option (Nat × K) :=
  if Vec.clipVal t ≠ 0 then some (n + t.1, Vec.clipVal t) else none

/-- `sleqp_restoration_problem_transform`, restoration.c:491-569, for a problem with
`n` variables, `m` constraints and constraint bounds `lb`, `ub`. -/
def restTransform (n m : Nat) (lb ub : Vec K) (primal consVal result : Vec K) : Option (Vec K) :=
  if primal.dim = n ∧ consVal.dim = m ∧ result.dim = n + m then
    let r := (result.clear).reserve
      (primal.nnz + min m (lb.nnz + ub.nnz + consVal.nnz))
    (r.pushAll primal.ents).bind fun r =>
      r.pushAll ((merge3 consVal.ents lb.ents ub.ents).filterMap (liftVal n))
  else none

/-- bounds of the restoration problem, `sleqp_restoration_problem_create`,
restoration.c:439-489 (there are no constraints) -/
def restBound (varB consB : Vec K) : Option (Vec K) :=
  Vec.concat varB consB (Vec.create (varB.dim + consB.dim) 0)

/-- The original problem as seen by the restoration function: the values of
`sleqp_problem_cons_val` / `sleqp_problem_cons_jac` at a point set by
`sleqp_problem_set_value`. -/
structure RestProblem (K : Type*) where
  numVars : Nat
  numCons : Nat
  consVal : Vec K → Vec K
  consJac : Vec K → Mat K

/-- `FuncData`, restoration.c:10-32, without work vectors; `probPoint` is the point
the original problem was last moved to. -/
structure RestState (K : Type*) where
  varPrimal : Vec K
  consPrimal : Vec K
  consVal : Vec K
  consJac : Mat K
  hasVal : Bool
  hasJac : Bool
  probPoint : Vec K

namespace RestState
variable (pr : RestProblem K)

/-- `restoration_func_set`, restoration.c:67-90. -/
def set (s : RestState K) (z : Vec K) : Option (RestState K) :=
  (splitPrimal pr.numVars pr.numCons z).map fun xs =>
    { s with varPrimal := xs.1, consPrimal := xs.2, hasVal := false, hasJac := false,
             probPoint := xs.1 }

/-- `sleqp_restoration_func_init`, restoration.c:412-437 (the copies of the given
vector and matrix are modelled as the values themselves). -/
def init (s : RestState K) (z : Vec K) (val : Vec K) (jac : Mat K) : Option (RestState K) :=
  (splitPrimal pr.numVars pr.numCons z).map fun xs =>
    { s with varPrimal := xs.1, consPrimal := xs.2, consVal := val, hasVal := true,
             consJac := jac, hasJac := true }

/-- `compute_cons_val`, restoration.c:136-146. -/
def computeVal (s : RestState K) : RestState K :=
  if s.hasVal then s else { s with consVal := pr.consVal s.probPoint, hasVal := true }

/-- `compute_cons_jac`, restoration.c:168-179. -/
def computeJac (s : RestState K) : RestState K :=
  if s.hasJac then s else { s with consJac := pr.consJac s.probPoint, hasJac := true }

end RestState

/-- the residual formed by `restoration_lsq_residuals`, restoration.c:148-166, from
the (computed) constraint values and the lifted part of the point -/
def restResidual (eps : K) (consVal consPrimal residual : Vec K) : Option (Vec K) :=
  Vec.addScaled consVal consPrimal 1 (-1) eps residual

/-- `restoration_lsq_jac_forward`, restoration.c:181-218. -/
def restForward (n m : Nat) (eps : K) (jac : Mat K) (d product : Vec K) : Option (Vec K) :=
  (splitPrimal n m d).bind fun xs =>
    (jac.multVec xs.1).bind fun cache =>
      (Vec.setFromRaw eps (Vec.create m 0) ((List.range m).map cache)).bind fun f =>
        Vec.addScaled f xs.2 1 (-1) eps product

/-- `restoration_lsq_jac_adjoint`, restoration.c:250-272. -/
def restAdjoint (n : Nat) (eps : K) (jac : Mat K) (y product : Vec K) : Option (Vec K) :=
  (jac.multVecTrans y eps (Vec.create n 0)).bind fun a => concatAdjoint a y product

/-- The restoration function as a least-squares function
(`restoration_func_create`, restoration.c:346-385; Levenberg-Marquardt factor 0).
The state of the user is the `FuncData`. -/
def restUser (pr : RestProblem K) (eps : K) : LsqUser (RestState K) K where
  numVars := pr.numVars + pr.numCons
  numRes := pr.numCons
  resid s dest := restResidual eps (s.computeVal pr).consVal s.consPrimal dest
  fwd s d dest := restForward pr.numVars pr.numCons eps (s.computeJac pr).consJac d dest
  adj s y dest := restAdjoint pr.numVars eps (s.computeJac pr).consJac y dest
  residNnz := none
  fwdNnz := none
  adjNnz := none

/-- `fill_restoration_iterate`, solver/phase.c:146-191: lift the current iterate,
initialise the restoration function with the constraint values and Jacobian of the
iterate, and query objective and gradient.  `f` is the restoration function with its
least-squares layer.  No `set_value` is called. -/
def enterRestoration (pr : RestProblem K) (eps : K) (lb ub : Vec K)
    (f : Lsq (RestState K) K) (x consVal : Vec K) (jac : Mat K) (grad : Vec K) :
    Option (Vec K × K × Vec K × Lsq (RestState K) K) :=
  (restTransform pr.numVars pr.numCons lb ub x consVal
      (Vec.create (pr.numVars + pr.numCons) 0)).bind fun z =>
    (f.point.init pr z consVal jac).bind fun st =>
      (Lsq.objVal (restUser pr eps) { f with point := st }).bind fun q =>
        (Lsq.objGrad (restUser pr eps) q.2 grad).map fun g => (z, q.1, g.1, g.2)

end Sleqp

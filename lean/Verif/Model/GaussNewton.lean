import Verif.Model.WorkStep
import Verif.Model.Lsqr

/-!
Model of `gauss_newton.c`: the step of the equality-constrained problem for least-squares functions.
The callbacks of the function, the projection onto the null space of the active gradients and the
Hessian products are parameters; log messages, timers and the checks of debug builds are left out.
A failed assertion and a division by zero are `none`.
-/

namespace Sleqp
variable {K : Type*} [Field K] [LinearOrder K]

/-- callbacks and settings of a `GaussNewtonSolver` -/
structure GnEnv (K : Type*) where
  numVars : Nat
  numCons : Nat
  numRes : Nat
  /-- `sleqp_lsq_func_residuals`: the vector overwritten -/
  residuals : Vec K → Option (Vec K)
  /-- `sleqp_lsq_func_jac_forward`: direction and product -/
  jacFwd : Vec K → Vec K → Option (Vec K)
  /-- `sleqp_lsq_func_jac_adjoint`: direction and product -/
  jacAdj : Vec K → Vec K → Option (Vec K)
  /-- `sleqp_aug_jac_project_nullspace`: direction and projection -/
  proj : Vec K → Vec K → Option (Vec K)
  /-- `sleqp_problem_hess_prod` for the multipliers given -/
  hp : Vec K → Vec K → Option (Vec K)
  sqrt : K → K
  eps : K
  zeroEps : K
  statTol : K
  timeUp : Nat → Bool

/-- the vectors and the matrix of a `GaussNewtonSolver`, gauss_newton.c:22-84 (those of the structs
`forward` and `adjoint` carry the prefixes `fwd` and `adj`) -/
structure GnMem (K : Type*) where
  lsqResiduals : Vec K
  lsqRhs : Vec K
  linConsVal : Vec K
  linConsRes : Vec K
  scaledRes : Vec K
  rhs : Vec K
  jac : Mat K
  fwdProj : Vec K
  fwdLsq : Vec K
  fwdCons : Vec K
  adjLsqDir : Vec K
  adjConsDir : Vec K
  adjLsq : Vec K
  adjCons : Vec K
  adjProd : Vec K
  sol : Vec K
  sparse : Vec K
  lsqr : LsqrMem K

/-- body of the loop in `compute_removed_cons`: the entries of the multipliers not yet reached and the
constraints removed so far -/
def gnRemovedStep (s : List (Nat × K) × List Nat) (i : Nat) : List (Nat × K) × List Nat :=
  match s.1 with
  | [] => ([], s.2 ++ [i])
  | (j, v) :: rest => if i = j then (rest, s.2) else ((j, v) :: rest, s.2 ++ [i])

/-- `compute_removed_cons`, gauss_newton.c:305-333: the constraints without stored multiplier -/
def gnRemoved (numCons : Nat) (violated : Vec K) : Option (List Nat) :=
  let s := (List.range numCons).foldl gnRemovedStep (violated.ents, [])
  if s.1.isEmpty then some s.2 else none

/-- `set_adjoint_dimension`, gauss_newton.c:353-368, with `resize_to_dimensions`,
gauss_newton.c:335-351; `k` is the number of violated constraints -/
def gnResize (e : GnEnv K) (s : GnMem K) (k : Nat) : GnMem K :=
  { s with
    adjConsDir := s.adjConsDir.resize k
    rhs := s.rhs.resize (e.numRes + k)
    fwdCons := s.fwdCons.resize k
    lsqr := lsqrResize s.lsqr e.numVars (e.numRes + k) }

/-- `compute_lsq_rhs`, gauss_newton.c:201-226 -/
def gnLsqRhs (e : GnEnv K) (s : GnMem K) (step : Vec K) : Option (GnMem K) :=
  (e.residuals s.lsqResiduals).bind fun r => (e.jacFwd step s.fwdLsq).bind fun f =>
    (r.addScaled f (-1) (-1) e.zeroEps s.lsqRhs).map fun b => { s with lsqResiduals := r, fwdLsq := f, lsqRhs := b }

/-- `compute_cons_rhs`, gauss_newton.c:228-276; `removed` are the constraints removed -/
def gnConsRhs (e : GnEnv K) (s : GnMem K) (w : WSet) (p : Bounds K) (consVal : Vec K) (jac : Mat K) (penalty : K)
    (removed : List Nat) (step : Vec K) : Option (GnMem K) :=
  (jac.multVec step).bind fun res => (s.sparse.setFromRaw e.zeroEps ((List.range e.numCons).map res)).bind fun t =>
    (consVal.addScaled t 1 1 e.zeroEps s.linConsVal).bind fun c =>
      (feasibilityResiduals (fun i => decide (w.consState i ≠ .inactive)) true e.numCons c p.consLb p.consUb s.linConsRes).bind fun r =>
        (r.removeEntries ((s.scaledRes.clear).resize (e.numCons - removed.length)) removed).map fun v =>
          { s with sparse := t, linConsVal := c, linConsRes := r, scaledRes := v.scale (-1 * penalty) }

/-- `compute_rhs`, gauss_newton.c:370-384 -/
def gnRhs (e : GnEnv K) (s : GnMem K) (w : WSet) (p : Bounds K) (consVal : Vec K) (jac : Mat K) (penalty : K)
    (removed : List Nat) (step : Vec K) : Option (GnMem K) :=
  (gnLsqRhs e s step).bind fun s => (gnConsRhs e s w p consVal jac penalty removed step).bind fun s =>
    (s.lsqRhs.concat s.scaledRes s.rhs.clear).map fun b => { s with rhs := b }

/-- `compute_cons_matrix`, gauss_newton.c:278-303 -/
def gnMatrix (e : GnEnv K) (s : GnMem K) (jac : Mat K) (penalty : K) (removed : List Nat) : Option (GnMem K) :=
  (jac.removeRows ((s.jac.clear).resize (e.numCons - removed.length) e.numVars) removed).map fun m =>
    { s with jac := m.scale penalty }

/-- `gauss_newton_solver_set_iterate`, gauss_newton.c:386-429, after the working step has been set: the
vectors of the solver and the number of violated constraints -/
def gnSetIterate (e : GnEnv K) (s : GnMem K) (w : WSet) (p : Bounds K) (it : Iterate K) (penalty : K) (ws : WorkStep K) :
    Option (GnMem K × Nat) :=
  (gnRemoved e.numCons ws.multipliers).bind fun removed =>
    (gnRhs e (gnResize e s (e.numCons - removed.length)) w p it.consVal it.consJac penalty removed ws.init.step).bind fun s =>
      (gnMatrix e s it.consJac penalty removed).map fun s => (s, e.numCons - removed.length)

/-- `forward_product`, gauss_newton.c:431-468; as the vectors of the solver are overwritten in every
call, they are taken as `gnSetIterate` leaves them -/
def gnForward (e : GnEnv K) (s : GnMem K) (k : Nat) (d p : Vec K) : Option (Vec K) :=
  if d.dim = e.numVars ∧ p.dim = e.numRes + k then
    (e.proj d s.fwdProj).bind fun q => (e.jacFwd q s.fwdLsq).bind fun f => (s.jac.multVec q).bind fun res =>
      (s.fwdCons.setFromRaw e.zeroEps ((List.range k).map res)).bind fun c => f.concat c p
  else none

/-- body of the loop in `adjoint_product` that splits the direction -/
def gnSplitStep (numRes : Nat) (s : Vec K × Vec K) (t : Nat × K) : Option (Vec K × Vec K) :=
  if t.1 < numRes then (s.1.push t.1 t.2).map fun a => (a, s.2) else (s.2.push (t.1 - numRes) t.2).map fun b => (s.1, b)

/-- the two parts of the direction, gauss_newton.c:486-513 -/
def gnSplit (e : GnEnv K) (s : GnMem K) (k : Nat) (d : Vec K) : Option (Vec K × Vec K) :=
  d.ents.foldlM (gnSplitStep e.numRes)
    ((s.adjLsqDir.clear).reserve (min e.numRes d.nnz), (s.adjConsDir.clear).reserve (min k d.nnz))

/-- `adjoint_product`, gauss_newton.c:470-533; see `gnForward` -/
def gnAdjoint (e : GnEnv K) (s : GnMem K) (k : Nat) (d p : Vec K) : Option (Vec K) :=
  if p.dim = e.numVars ∧ d.dim = e.numRes + k then
    (gnSplit e s k d).bind fun ab => (e.jacAdj ab.1 s.adjLsq).bind fun f =>
      (s.jac.multVecTrans ab.2 e.zeroEps s.adjCons).bind fun c => (f.addScaled c 1 1 e.zeroEps s.adjProd).bind fun t => e.proj t p
  else none

/-- the least-squares solver as set up in `gauss_newton_solver_create` and called in `solve_lsqr`,
gauss_newton.c:535-555; `tolerance_factor` is 1e-2 -/
def gnLsqr (e : GnEnv K) (s : GnMem K) (k : Nat) (radius : K) : LsqrEnv K :=
  ⟨gnForward e s k, gnAdjoint e s k, e.sqrt, e.eps, e.zeroEps, e.statTol * (1 / 100), some radius, e.timeUp, e.numVars, e.numRes + k⟩

/-- `gauss_newton_solver_compute_direction`, gauss_newton.c:557-606; `some none` stands for the code
`SLEQP_ABORT_TIME` -/
def gnDirection (e : GnEnv K) (s : GnMem K) (k : Nat) (it : Iterate K) (ws : WorkStep K) (out : Dir K) : Option (Option (Dir K)) :=
  (lsqrSolve (gnLsqr e s k ws.init.radius) s.lsqr s.rhs s.sol).bind fun
    | none => some none
    | some x => (ws.init.step.addScaled x 1 1 e.zeroEps out.primal).bind fun p =>
        (Dir.reset { out with primal := p } e.numCons it.objGrad it.consJac e.hp e.zeroEps).map some

end Sleqp

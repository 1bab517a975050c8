import Verif.Model.CauchyStep
import Verif.Model.Linesearch
import Verif.Model.Soc

/-!
Model of the computation of trial points, `/repo/src/main/trial_point.c`, without parametric Cauchy steps.

The Cauchy direction is that of `Model/CauchyStep`, the line searches are those of `Model/Linesearch`. Parameters (fields of `TrialCalls`) are the LP
solver, the products with the Hessian (with the multipliers estimated, which depend on the Cauchy direction), the Newton direction (see `Model/Newton`,
`Model/GaussNewton`), Euclidean norms and `qsort`. Time limits and checks made in debug builds only are left out.
-/

namespace Sleqp
variable {K : Type*} [Field K] [LinearOrder K]

structure TrialCalls (K : Type*) where
  lp : LpCalls K
  /-- `sleqp_problem_hess_prod` with the multipliers of the solver -/
  hess : CauchyDir K → Vec K → Vec K → Option (Vec K)
  /-- `sleqp_eqp_solver_compute_direction` -/
  newton : CauchyDir K → Dir K → Option (Dir K)
  norm : Vec K → K
  sort : List (BreakPoint K) → List (BreakPoint K)

/-- the settings used: `tol` is `violation_tolerance` in penalty.c -/
structure TrialSettings (K : Type*) where
  tol : K
  feasTol : K
  ls : LsParams K
  quadratic : Bool
  newton : Bool
  exact : Bool
  acceptedReduction : K

/-- the part of `SleqpTrialPointSolver`, trial_point.h:27-92, used here. `combined`, `newtonWork` and `multWork` stand for work vectors of the line search and the
merit function, of which only the storage matters. -/
structure TrialSolver (K : Type*) where
  cd : CauchyDir K
  trustRadius : K
  cauchy : Dir K
  newton : Dir K
  trial : Dir K
  combined : Vec K
  newtonWork : Vec K
  multWork : Vec K
  initial : Vec K

/-- problem and iterate as merit functions and line searches see them -/
def CauchyDir.merits (e : LpEnv K) (work : Vec K) (t : CauchyDir K) : MeritEnv K :=
  ⟨e.numCons, t.iterate.objVal, t.iterate.consVal, e.bounds.consLb, e.bounds.consUb, work, e.zeroEps, t.penalty⟩

/-- `compute_cauchy_step_simple`, trial_point/cauchy_step.c:233-377; the merit value is not assigned without quadratic model -/
def TrialSolver.cauchyDirection (e : LpEnv K) (c : TrialCalls K) (s : TrialSettings K) (t : TrialSolver K) : Option (TrialSolver K × Bool × Option K) :=
  (t.cd.compute e c.lp s.tol s.feasTol).bind fun r =>
  (r.1.step.copy t.cauchy.primal).bind fun p =>
  (({ t.cauchy with primal := p } : Dir K).reset e.numCons r.1.iterate.objGrad r.1.iterate.consJac (c.hess r.1) e.zeroEps).bind fun D =>
  if s.quadratic then
    (cauchyStep (r.1.merits e t.combined) s.ls t.trustRadius (c.norm D.primal) D).map fun q =>
      ({ t with cd := r.1, cauchy := q.1 }, q.2.1, some q.2.2)
  else some ({ t with cd := r.1, cauchy := D }, true, none)

/-- what `sleqp_trial_point_solver_compute_trial_point` assigns -/
structure TrialPt (K : Type*) where
  solver : TrialSolver K
  point : Vec K
  merit : K
  failed : Bool
  full : Bool

/-- `compute_trial_point_simple`, trial_point.c:546-589; `out` is the primal vector of the trial iterate -/
def TrialSolver.simple (e : LpEnv K) (c : TrialCalls K) (s : TrialSettings K) (t : TrialSolver K) (out : Vec K) : Option (TrialPt K) :=
  (t.cauchyDirection e c s).bind fun r =>
  ((r.1.cd.merits e r.1.combined).linear r.1.cauchy).bind fun lin =>
  (if s.quadratic then (r.1.cauchy.primal.dot r.1.cauchy.hess).map fun h => lin + 1 / 2 * h else some lin).bind fun merit =>
  (r.1.cauchy.copy r.1.trial).bind fun T =>
  (trialFromStep e.zeroEps e.bounds r.1.cd.iterate.primal T.primal r.1.initial out).map fun x =>
    ⟨{ r.1 with trial := T }, x, merit, false, r.2.1⟩

/-- the line search between Cauchy and Newton step, chosen by the settings, trial_point.c:652-690 -/
def TrialSolver.search (e : LpEnv K) (c : TrialCalls K) (s : TrialSettings K) (t : TrialSolver K) (N : Dir K) (cauchyMerit : K) : Option (TrialRes K) :=
  if s.exact then trialStepExact (t.cd.merits e t.combined) t.cd.iterate.objGrad c.sort t.cauchy N t.newtonWork t.trial
  else trialStep (t.cd.merits e t.combined) ⟨t.cd.iterate.primal, e.bounds.varsLb, e.bounds.varsUb⟩ s.ls t.cauchy N cauchyMerit t.newtonWork t.multWork t.trial

/-- `compute_trial_point_newton`, trial_point.c:591-707 -/
def TrialSolver.newtonPoint (e : LpEnv K) (c : TrialCalls K) (s : TrialSettings K) (t : TrialSolver K) (out : Vec K) : Option (TrialPt K) :=
  (t.cauchyDirection e c s).bind fun r =>
  r.2.2.bind fun cauchyMerit =>
  (c.newton r.1.cd r.1.newton).bind fun N =>
  (r.1.search e c s N cauchyMerit).bind fun q =>
  (trialFromStep e.zeroEps e.bounds r.1.cd.iterate.primal q.dir.primal r.1.initial out).map fun x =>
    ⟨{ r.1 with newton := N, trial := q.dir }, x, q.merit, decide (q.alpha = 0), r.2.1⟩

/-- `compute_trial_point_deterministic`, trial_point.c:709-795 -/
def TrialSolver.compute (e : LpEnv K) (c : TrialCalls K) (s : TrialSettings K) (t : TrialSolver K) (out : Vec K) : Option (TrialPt K) :=
  if s.quadratic && s.newton then t.newtonPoint e c s out else t.simple e c s out

/-! ### Dynamic functions -/

/-- what a dynamic function returns when it is evaluated with a new error bound: objective value and gradient, constraint values and Jacobian, and its
error estimate -/
structure DynValues (K : Type*) where
  objVal : K
  objGrad : Vec K
  consVal : Vec K
  consJac : Mat K
  err : K

/-- `refine_iterate`, trial_point.c:812-836, and the recomputation of the merit value -/
def TrialSolver.refine (e : LpEnv K) (d : DynValues K) (t : TrialSolver K) : Option (TrialSolver K) :=
  let it := { t.cd.iterate with objVal := d.objVal, objGrad := d.objGrad, consVal := d.consVal, consJac := d.consJac }
  (meritFunc e.numCons e.bounds it t.cd.penalty).map fun m => { t with cd := { t.cd with iterate := it, merit := m } }

/-- the loop of `solver_refine_step`, trial_point.c:838-910, and the final assignment of the trial point in `compute_trial_point_dynamic`, trial_point.c:912-934.
`calls k` are the parameters in pass `k`, `eval k b` is the function evaluated in pass `k` with error bound `b`, `err` the current
error estimate. The flag `failed_eqp_step` computed in the loop is a local variable. `none` if the number `fuel` of passes is exceeded, which the code does not
bound. -/
def TrialSolver.refineLoop (e : LpEnv K) (calls : Nat → TrialCalls K) (eval : Nat → K → DynValues K) (s : TrialSettings K) :
    Nat → Nat → K → TrialPt K → Option (TrialPt K × K)
  | 0, _, _, _ => none
  | fuel + 1, k, err, o =>
    let bound := requiredErrorBound s.acceptedReduction (o.solver.cd.merit - o.merit)
    if err ≤ bound then
      (trialFromStep e.zeroEps e.bounds o.solver.cd.iterate.primal o.solver.trial.primal o.solver.initial o.point).map fun x => ({ o with point := x }, err)
    else
      (o.solver.refine e (eval k bound)).bind fun t =>
      (t.compute e (calls k) s o.point).bind fun o' =>
        refineLoop e calls eval s fuel (k + 1) (eval k bound).err { o' with failed := o.failed }

/-- `compute_trial_point_dynamic`, trial_point.c:912-934 -/
def TrialSolver.computeDyn (e : LpEnv K) (c : TrialCalls K) (calls : Nat → TrialCalls K) (eval : Nat → K → DynValues K) (s : TrialSettings K) (fuel : Nat) (err : K)
    (t : TrialSolver K) (out : Vec K) : Option (TrialPt K × K) :=
  (t.compute e c s out).bind (refineLoop e calls eval s fuel 0 err)

end Sleqp

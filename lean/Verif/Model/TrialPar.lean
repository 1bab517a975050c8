import Verif.Model.TrialPoint
import Verif.Model.Parametric

/-!
Model of the computation of trial points with parametric Cauchy steps (setting `PARAMETRIC_CAUCHY`), `/repo/src/main/trial_point/cauchy_step.c` and
`/repo/src/main/trial_point.c`, without Newton step.

The Cauchy direction for the radius given is that of `Model/CauchyStep`, the search for another radius that of `Model/Parametric`. Parameters are those of
`Model/TrialPoint` and, in addition, the step and the working set the linear program yields for another radius. Time limits and checks made in debug builds only
are left out.
-/

namespace Sleqp
variable {K : Type*} [Field K] [LinearOrder K]

/-- what the search for the radius needs beyond `TrialCalls`, parametric.c:11-34 -/
structure ParCalls (K : Type*) where
  /-- `sleqp_cauchy_set_trust_radius`, `sleqp_cauchy_solve` and `sleqp_cauchy_lp_step` one after the other: radius, storage of the result -/
  lpAt : CauchyDir K → K → Vec K → Option (Vec K)
  /-- `sleqp_cauchy_working_set` after the linear program has been solved for a radius -/
  work : CauchyDir K → K → WSet
  increase : K
  decrease : K
  resolves : Nat
  /-- what the line search has been set to, in the iteration before -/
  line : Option (ParLine K)
  /-- storage of `last_direction` -/
  last : Dir K

/-- what `compute_cauchy_step_parametric` assigns: `base` is the outcome of `compute_cauchy_direction`, for whose working set the multipliers have been estimated -/
structure ParCauchy (K : Type*) where
  solver : TrialSolver K
  base : CauchyDir K
  merit : K

/-- the arguments of `sleqp_parametric_solver_solve` in `compute_cauchy_step_parametric`, trial_point/cauchy_step.c:170-231 -/
def TrialSolver.parEnv (e : LpEnv K) (c : TrialCalls K) (s : TrialSettings K) (par : ParCalls K) (t : TrialSolver K) (cd : CauchyDir K) : ParEnv K :=
  ⟨cd.merits e t.combined, cd.iterate.objGrad, cd.iterate.consJac, c.hess cd, par.lpAt cd, s.ls.eps, s.ls.cauchyEta, par.increase, par.decrease, par.resolves,
    par.line⟩

/-- `compute_cauchy_step_parametric`, trial_point/cauchy_step.c:170-231; it counts as a full step always -/
def TrialSolver.parDirection (e : LpEnv K) (c : TrialCalls K) (s : TrialSettings K) (par : ParCalls K) (t : TrialSolver K) : Option (ParCauchy K) :=
  (t.cd.compute e c.lp s.tol s.feasTol).bind fun r =>
  ((t.parEnv e c s par r.1).solve r.1.step t.cauchy par.last r.1.radius).map fun p =>
    ⟨{ t with cd := { r.1 with radius := p.radius, work := par.work r.1 p.solved }, cauchy := p.dir }, r.1, p.merit⟩

/-- `compute_trial_point_simple`, trial_point.c:546-589, with parametric Cauchy steps -/
def TrialSolver.parSimple (e : LpEnv K) (c : TrialCalls K) (s : TrialSettings K) (par : ParCalls K) (t : TrialSolver K) (out : Vec K) :
    Option (TrialPt K × CauchyDir K) :=
  (t.parDirection e c s par).bind fun r =>
  ((r.solver.cd.merits e r.solver.combined).linear r.solver.cauchy).bind fun lin =>
  (if s.quadratic then (r.solver.cauchy.primal.dot r.solver.cauchy.hess).map fun h => lin + 1 / 2 * h else some lin).bind fun merit =>
  (r.solver.cauchy.copy r.solver.trial).bind fun T =>
  (trialFromStep e.zeroEps e.bounds r.solver.cd.iterate.primal T.primal r.solver.initial out).map fun x =>
    (⟨{ r.solver with trial := T }, x, merit, false, true⟩, r.base)

end Sleqp

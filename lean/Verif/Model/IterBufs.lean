import Mathlib.Tactic.TypeStar

/-!
Model of the two iterates of `SleqpProblemSolver` (`/repo/src/main/problem_solver.h`): the current one and the trial iterate, which change places when a step is accepted.

Of an iterate, the point, the multipliers (of constraints and variables together) and the working set are modelled; values and derivatives at the point are evaluated again
whenever it changes (`Model/EvalPoints.lean`). How trial points, multipliers and working sets are computed is the subject of other models; here they are the inputs
of an iteration.
-/

namespace Sleqp
variable {X D W K : Type*}

/-- part of `struct SleqpIterate`, iterate.c:13-56 -/
structure IterBuf (X D W : Type*) where
  x : X
  dual : D
  ws : W
deriving DecidableEq

/-- `iterate` and `trial_iterate` of `struct SleqpProblemSolver`, problem_solver.h:14-86 -/
structure Bufs (X D W : Type*) where
  cur : IterBuf X D W
  trial : IterBuf X D W
deriving DecidableEq

/-- how an iteration ends: optimal or unbounded at its beginning, locally infeasible, step rejected, step (or its correction) accepted -/
inductive IterEnd where
  | stop
  | infeasible
  | rejected
  | accepted
deriving DecidableEq

/-- what is computed in an iteration: multipliers and working set at the current point, the trial point, the corrected point (if a second-order correction is
computed) -/
structure IterIn (X D W : Type*) where
  dual : D
  ws : W
  trial : X
  soc : Option X
  out : IterEnd

/-- after the computation of the trial point: the working set (`sleqp_cauchy_working_set`, trial_point/cauchy_step.c:149) and the multipliers
(`estimate_dual_values`, trial_point/cauchy_step.c:19-31) are stored in the current iterate, the trial point (`compute_trial_iterate_from_step`,
trial_point.c:521-544) in the trial iterate, of which multipliers and working set are left alone -/
def Bufs.computed (b : Bufs X D W) (e : IterIn X D W) : Bufs X D W :=
  ⟨{ b.cur with dual := e.dual, ws := e.ws }, { b.trial with x := e.trial }⟩

/-- after the second-order correction, which replaces the point of the trial iterate: `compute_trial_point_soc_deterministic`, trial_point.c:980-1002 -/
def Bufs.corrected (b : Bufs X D W) (e : IterIn X D W) : Bufs X D W :=
  ⟨(b.computed e).cur, { (b.computed e).trial with x := e.soc.getD e.trial }⟩

/-- one iteration, `sleqp_problem_solver_perform_iteration`, problem_solver/iteration.c:349-602; when a step is accepted the iterates change places
(`sleqp_problem_solver_accept_step`, problem_solver/step.c:56-131) -/
def Bufs.iterate (b : Bufs X D W) (e : IterIn X D W) : Bufs X D W :=
  match e.out with
  | .stop => b
  | .infeasible => b.computed e
  | .rejected => b.corrected e
  | .accepted => ⟨(b.corrected e).trial, (b.corrected e).cur⟩

/-- the columns "Primal step", "Dual step" and "Working set" of a line of the log; `none` for `--` -/
structure LogLine (K W : Type*) where
  primal : K
  dual : K
  ws : Option W
deriving DecidableEq

/-- the line printed by an iteration, `sleqp_problem_solver_print_line`, problem_solver/print.c:168-247, with the norms computed by `compute_step_lengths`,
problem_solver/iteration.c:219-259, before a second-order correction. `pd` and `dd` stand for the norms of differences; numbers of active variables and constraints
are printed for the working set. -/
def Bufs.line [DecidableEq W] (pd : X → X → K) (dd : D → D → K) (b : Bufs X D W) (e : IterIn X D W) : Option (LogLine K W) :=
  match e.out with
  | .stop => none
  | .infeasible => none
  | _ => some ⟨pd (b.computed e).cur.x (b.computed e).trial.x, dd (b.computed e).cur.dual (b.computed e).trial.dual,
      if (b.computed e).cur.ws = (b.computed e).trial.ws then none else some (b.computed e).cur.ws⟩

end Sleqp

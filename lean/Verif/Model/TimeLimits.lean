import Verif.Model.Timer

/-!
Model of how a time limit is handed on from the loop of iterations to the parts computing a trial point: the LP solves of the
Cauchy step (`/repo/src/main/lp/lpi.c` and its back ends, `/repo/src/main/cauchy/standard_cauchy.c`), and the equality constrained
problems (`/repo/src/main/eqp.c`, `newton.c`, `gauss_newton.c`, `tr/*.c`). Only timers, limits and time-outs are kept; clock readings
and the behaviour of the libraries are parameters. A failing assertion (of a timer) is `none`. Errors other than time-outs, and
everything that is computed, are left out.
-/

namespace Sleqp
variable {K : Type*} [Field K] [LinearOrder K]

/-- Which part a limit is given to. -/
inductive TimedPart | lp | reduced | eqp
deriving DecidableEq, Repr

/-- A limit in force when a part begins to work, with the clock reading at its start; `none` is no limit. -/
structure Grant (K : Type*) where
  part : TimedPart
  start : K
  limit : Option K
deriving DecidableEq, Repr

/-- One call of an LP library: clock readings before and after, and whether the library reports that its limit was reached. -/
structure LpRun (K : Type*) where
  start : K
  stop : K
  timedOut : Bool
deriving DecidableEq, Repr

/-- An LP interface: its timer and limit, lp/lpi.c:9-28, and the limit stored in the library (`time_limit` of HiGHS, `TIMELIMIT` of
SoPlex, `TimeLimit` of Gurobi; initially infinite, i.e. `none`). -/
structure LpTime (K : Type*) where
  timer : Timer K
  limit : Option K
  lib : Option K
deriving DecidableEq, Repr

/-- `sleqp_lpi_solve`, lp/lpi.c:89-103, with `highs_solve`, lp/lpi_highs.c:252-303, `soplex_solve`, lp/lpi_soplex.cc:179-288, or
`gurobi_solve`, lp/lpi_gurobi.c:177-227: all three set the limit of the library unless it is `SLEQP_NONE`, and return
`SLEQP_ABORT_TIME` iff the library stopped because of its limit. -/
def LpTime.solve (p : LpTime K) (r : LpRun K) : Option (LpTime K × Bool) :=
  match p.timer.startAt r.start with
  | none => none
  | some t =>
    match t.stopAt r.stop with
    | none => none
    | some t' => some ({ p with timer := t', lib := match p.limit with | some l => some l | none => p.lib }, r.timedOut)

/-- The parts of `CauchyData`, cauchy/standard_cauchy.c:24-60, which deal with time. -/
structure CauchyTime (K : Type*) where
  limit : Option K
  std : LpTime K
  red : LpTime K
deriving DecidableEq, Repr

/-- `standard_cauchy_solve`, cauchy/standard_cauchy.c:842-945, followed, if resolves are enabled and needed (`resolve`), by
`switch_to_reduced_problem`, 639-649. The limit is reduced by the time taken by the first of these only. -/
def CauchyTime.solve (c : CauchyTime K) (r : LpRun K) (resolve : Option (LpRun K)) (log : List (Grant K)) :
    Option (CauchyTime K × Bool × List (Grant K)) :=
  match ({ c.std with limit := c.limit } : LpTime K).solve r with
  | none => none
  | some (d, true) => some ({ c with std := d }, true, log ++ [⟨.lp, r.start, d.lib⟩])
  | some (d, false) =>
    let c' : CauchyTime K := { c with std := d, limit := Timer.remaining (d.timer.elapsed r.stop) c.limit }
    let log' := log ++ [⟨.lp, r.start, d.lib⟩]
    match resolve with
    | none => some (c', false, log')
    | some r2 =>
      match ({ c'.red with limit := c'.limit } : LpTime K).solve r2 with
      | none => none
      | some (d2, out) => some ({ c' with red := d2 }, out, log' ++ [⟨.reduced, r2.start, d2.lib⟩])

/-- The LP solves of one Cauchy step, one after the other; a time-out ends it. -/
def CauchyTime.solves (c : CauchyTime K) (log : List (Grant K)) :
    List (LpRun K × Option (LpRun K)) → Option (CauchyTime K × Bool × List (Grant K))
  | [] => some (c, false, log)
  | (r, r2) :: rest =>
    match c.solve r r2 log with
    | none => none
    | some (c', true, log') => some (c', true, log')
    | some (c', false, log') => c'.solves log' rest

/-- How the equality constrained problems are solved: `create_eqp_solver`, trial_point.c:190-223. -/
inductive EqpKind | newton | gaussNewton
deriving DecidableEq, Repr

/-- The timers involved in the solution of an equality constrained problem: of `SleqpEQPSolver`, eqp.c:6-14, of `NewtonSolver`,
newton.c:22-50, of `SleqpTRSolver`, tr/tr_solver.c:8-16, and of the iterative method (Steihaug or trlib, or LSQR, whose limit is its
own). -/
structure EqpTime (K : Type*) where
  kind : EqpKind
  limit : Option K
  eqp : Timer K
  newton : Timer K
  tr : Timer K
  inner : Timer K
deriving DecidableEq, Repr

/-- Clock readings of one solution: starts of the four timers, those in the loop, stops of the timers, and the time subtracted at the
end of a Newton solution (newton.c:588-591). -/
structure EqpRun (K : Type*) where
  startEqp : K
  startNewton : K
  startTr : K
  startInner : K
  checks : List K
  stopInner : K
  stopTr : K
  stopNewton : K
  stopEqp : K
  other : K
deriving DecidableEq, Repr

/-- The check in the loops: tr/steihaug_solver.c:307-312, tr/trlib_solver.c:631-636, tr/lsqr.c:313-318. -/
def loopTimesOut (inner : Timer K) (limit : Option K) (checks : List K) : Bool :=
  match limit with
  | none => false
  | some l => checks.any fun t => decide (l ≤ inner.elapsed t)

/-- The loop with its timer: `steihaug_solver_solve`, tr/steihaug_solver.c:223-496, `trlib_loop`, tr/trlib_solver.c:244-651,
`sleqp_lsqr_solver_solve`, tr/lsqr.c:172-333. The timer is stopped in any case. -/
def loopRun (inner : Timer K) (limit : Option K) (r : EqpRun K) : Option (Timer K × Bool) :=
  match inner.startAt r.startInner with
  | none => none
  | some t =>
    match t.stopAt r.stopInner with
    | none => none
    | some t' => some (t', loopTimesOut t limit r.checks)

/-- `newton_solver_compute_direction`, newton.c:442-594, from the start of its timer on, with `sleqp_tr_solver_solve`,
tr/tr_solver.c:53-76: when the loop runs out of time, both return through `SLEQP_CALL`, before they stop their timers. -/
def EqpTime.newtonRun (e : EqpTime K) (r : EqpRun K) : Option (EqpTime K × Bool) :=
  match e.newton.startAt r.startNewton, e.tr.startAt r.startTr, loopRun e.inner e.limit r with
  | some n, some t, some (i, true) => some ({ e with newton := n, tr := t, inner := i }, true)
  | some n, some t, some (i, false) =>
    match t.stopAt r.stopTr, n.stopAt r.stopNewton with
    | some t', some n' => some ({ e with newton := n'.add (-r.other), tr := t', inner := i }, false)
    | _, _ => none
  | _, _, _ => none

/-- The callback `compute_direction`: the above, or `gauss_newton_solver_compute_direction`, gauss_newton.c:557-606. `skip` is the
early return of newton.c:502-508, before any further timer is started. -/
def EqpTime.inside (e : EqpTime K) (skip : Bool) (r : EqpRun K) : Option (EqpTime K × Bool) :=
  if skip then some (e, false)
  else match e.kind with
    | .newton => e.newtonRun r
    | .gaussNewton => (loopRun e.inner e.limit r).map fun s => ({ e with inner := s.1 }, s.2)

/-- `sleqp_eqp_solver_compute_direction`, eqp.c:74-88. -/
def EqpTime.run (e : EqpTime K) (skip : Bool) (r : EqpRun K) : Option (EqpTime K × Bool) :=
  match e.eqp.startAt r.startEqp with
  | none => none
  | some q =>
    match e.inside skip r with
    | none => none
    | some (e', out) =>
      match q.stopAt r.stopEqp with
      | none => none
      | some q' => some ({ e' with eqp := q' }, out)

/-- `SleqpTrialPointSolver` as far as time is concerned. -/
structure TpTime (K : Type*) where
  timer : Timer K
  limit : Option K
  cauchy : CauchyTime K
  eqp : EqpTime K
deriving DecidableEq, Repr

/-- Clock readings of one Cauchy step, and of the Newton step following it, if there is one: the reading of the remaining time,
whether the solution is skipped, and its readings. -/
structure StepRun (K : Type*) where
  read : K
  lps : List (LpRun K × Option (LpRun K))
  eqp : Option (K × Bool × EqpRun K)
deriving DecidableEq, Repr

/-- `sleqp_trial_point_solver_compute_cauchy_step`, trial_point/cauchy_step.c:379-410. -/
def TpTime.cauchyStep (s : TpTime K) (r : StepRun K) (log : List (Grant K)) : Option (TpTime K × Bool × List (Grant K)) :=
  match ({ s.cauchy with limit := Timer.remaining (s.timer.ttl r.read) s.limit } : CauchyTime K).solves log r.lps with
  | none => none
  | some (c, out, log') => some ({ s with cauchy := c }, out, log')

/-- `compute_trial_point_newton`, trial_point.c:591-707 ff.: the remaining time is read before the Cauchy step is computed and handed
to the equality constrained problem afterwards. Without Newton step: `compute_trial_point_simple`, trial_point.c:546-589. -/
def TpTime.step (s : TpTime K) (r : StepRun K) (log : List (Grant K)) : Option (TpTime K × Bool × List (Grant K)) :=
  match r.eqp with
  | none => s.cauchyStep r log
  | some (read, skip, er) =>
    let rem := Timer.remaining (s.timer.ttl read) s.limit
    match s.cauchyStep r log with
    | none => none
    | some (s', true, log') => some (s', true, log')
    | some (s', false, log') =>
      match ({ s'.eqp with limit := rem } : EqpTime K).run skip er with
      | none => none
      | some (e, out) => some ({ s' with eqp := e }, out, log' ++ [⟨.eqp, er.startInner, rem⟩])

/-- The steps of one trial point: one, or several for dynamic functions (`solver_refine_step`, trial_point.c:838-910). -/
def TpTime.steps (s : TpTime K) (log : List (Grant K)) : List (StepRun K) → Option (TpTime K × Bool × List (Grant K))
  | [] => some (s, false, log)
  | r :: rest =>
    match s.step r log with
    | none => none
    | some (s', true, log') => some (s', true, log')
    | some (s', false, log') => s'.steps log' rest

/-- One trial point: the limit it is given, clock readings at start and stop, and those of its steps. -/
structure TpRun (K : Type*) where
  limit : Option K
  start : K
  steps : List (StepRun K)
  stop : K
deriving DecidableEq, Repr

/-- `sleqp_trial_point_solver_set_time_limit`, trial_point/time.c:5-14 (called by `prepare_trial_point_solver`,
problem_solver/iteration.c:64-107), and `sleqp_trial_point_solver_compute_trial_point`, trial_point.c:936-978. After a time-out the
timer keeps running. -/
def TpTime.run (s : TpTime K) (r : TpRun K) : Option (TpTime K × Bool × List (Grant K)) :=
  match (Timer.reset : Timer K).startAt r.start with
  | none => none
  | some t =>
    match ({ s with timer := t, limit := r.limit } : TpTime K).steps [] r.steps with
    | none => none
    | some (s', true, log) => some (s', true, log)
    | some (s', false, log) =>
      match s'.timer.stopAt r.stop with
      | none => none
      | some t' => some ({ s' with timer := t' }, false, log)

/-- The parts as created: `sleqp_trial_point_solver_create`, trial_point.c:249-338, with tr/tr_solver.c:47, tr/lsqr.c:53, lp/lpi.c:55 and
cauchy/standard_cauchy.c:159. -/
def TpTime.fresh (kind : EqpKind) : TpTime K :=
  let lp : LpTime K := ⟨.reset, none, none⟩
  ⟨.reset, none, ⟨none, lp, lp⟩, ⟨kind, none, .reset, .reset, .reset, .reset⟩⟩

end Sleqp

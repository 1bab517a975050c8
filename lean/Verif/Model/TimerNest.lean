import Mathlib.Data.Nat.Notation

/-!
Model of the timers that are started and stopped during a solve, and of what becomes of them when a function returns early.

A run of (part of) the code is reduced to the timers it starts, stops, resets and shows, and to the places at which functions return
something else than `SLEQP_OKAY`: `Act`. Everything else, in particular all numbers and all decisions, is left out; a run is any `Act` whose
timers are nested as in the code (`Act.Within` in the specification).

Assertions are taken to be checked: `none` is a failed assertion. The timer of the preprocessor, which runs only while a solver is created, is
left out.
-/

namespace Sleqp

/-- the timers. `phase` tells apart the objects belonging to the problem solver and those belonging to the one for restoration
(solver.c), `layer` the functions wrapped into each other (user function, scaling, fixed variables, …). -/
inductive TimerId
  /-- solver/solve.c:267, 293 -/
  | solver
  /-- problem_solver/solve.c:181, 186 -/
  | problem (phase : Bool)
  /-- trial_point.c:956, 975, 1083, 1095 -/
  | trial (phase : Bool)
  /-- eqp.c:79, 85 -/
  | eqp (phase : Bool)
  /-- newton.c:519, 586 -/
  | newton (phase : Bool)
  /-- tr/tr_solver.c:62, 73 -/
  | tr (phase : Bool)
  /-- tr/steihaug_solver.c:265, 288, 488; tr/trlib_solver.c:300, 639; tr/lsqr.c:194, 283, 321 -/
  | krylov (phase : Bool)
  /-- linesearch.c:169, 312, 348, 453, 602 -/
  | linesearch (phase : Bool)
  /-- lp/lpi.c:92, 100; `reduced` tells apart the LPs of a Cauchy solver -/
  | lp (phase reduced : Bool)
  /-- aug_jac/aug_jac.c:48, 52 -/
  | augCreate (phase : Bool)
  /-- aug_jac/aug_jac.c:69, 73 -/
  | augSolve (phase : Bool)
  /-- aug_jac/standard_aug_jac.c:273, 279 -/
  | factorize (phase : Bool)
  /-- aug_jac/standard_aug_jac.c:316, 347, 362, 391, 406, 432 -/
  | substitute (phase : Bool)
  /-- quasi_newton/quasi_newton.c:145, 152 -/
  | update
  /-- func.c:90, 97, 134, 140, 156, 162, 185, 191, 215, 221, 391, 399: set, value, gradient, constraint values, Jacobian, Hessian -/
  | func (layer : ℕ) (kind : Fin 6)
  /-- lsq.c:128, 136, 467, 476, 498, 507: residuals, forward and adjoint products -/
  | lsq (layer : ℕ) (kind : Fin 3)
deriving DecidableEq, Repr

/-- return codes other than `SLEQP_OKAY`: `SLEQP_ABORT_TIME` and errors (pub_types.h:27-32) -/
inductive EarlyRet | time | error
deriving DecidableEq, Repr

/-- whether a timer is stopped when the code it measures returns early. Mostly that code is called by `SLEQP_CALL` (pub_types.h:75-88), which
returns before the timer is stopped; the exceptions are lp/lpi.c:92-102, eqp.c:79-87 and problem_solver/solve.c:181-186, which keep the return
code, and the loops that find their time used up themselves (tr/steihaug_solver.c:488-492, tr/trlib_solver.c:639-643, tr/lsqr.c:321-325). -/
def stopsFor : TimerId → EarlyRet → Bool
  | .problem _, _ => true
  | .eqp _, _ => true
  | .lp _ _, _ => true
  | .krylov _, .time => true
  | _, _ => false

/-- a run, reduced to timers and returns -/
inductive Act
  | skip
  | stop (r : EarlyRet)
  | seq (a b : Act)
  | timed (id : TimerId) (a : Act)
  | reset (id : TimerId)
  | shown (id : TimerId)
  | catchTime (a : Act)
deriving DecidableEq, Repr

/-- which timers are running -/
abbrev Running := TimerId → Bool

/-- `s` with the timer `id` running or not -/
def Running.put (s : Running) (id : TimerId) (b : Bool) : Running := fun j => if j = id then b else s j

/-- effect of a run: `none` for a failed assertion, otherwise the return code (`none` for `SLEQP_OKAY`) and the timers running.
`sleqp_timer_start` (timer.c:66-74) and `sleqp_timer_display` (timer.c:253-316, by `sleqp_timer_get_avg`, timer.c:150-161) assert that the timer
does not run, `sleqp_timer_stop` (timer.c:101-118) that it does; `sleqp_timer_reset` (timer.c:76-82) stops it. A time-out caught ends what
is inside of `catchTime` only (problem_solver/solve.c:188-193). -/
def Act.run : Act → Running → Option (Option EarlyRet × Running)
  | .skip, s => some (none, s)
  | .stop r, s => some (some r, s)
  | .seq a b, s =>
    match a.run s with
    | none => none
    | some (some r, s') => some (some r, s')
    | some (none, s') => b.run s'
  | .timed id a, s =>
    if s id then none
    else
      match a.run (s.put id true) with
      | none => none
      | some (none, s') => if s' id then some (none, s'.put id false) else none
      | some (some r, s') =>
        if stopsFor id r then (if s' id then some (some r, s'.put id false) else none)
        else some (some r, s')
  | .reset id, s => some (none, s.put id false)
  | .shown id, s => if s id then none else some (none, s)
  | .catchTime a, s =>
    match a.run s with
    | none => none
    | some (some .time, s') => some (none, s')
    | some x => some x

/-- runs one after the other -/
def Act.seqAll : List Act → Act
  | [] => .skip
  | a :: rest => .seq a (seqAll rest)

/-- the part of an iteration concerned with the trial point: computation (trial_point.c:938-978), evaluation, and perhaps computation of a
corrected point (trial_point.c:1074-1098) -/
structure TrialRun where
  compute : Act
  evaluate : Act
  correct : Option Act

/-- an iteration: `sleqp_problem_solver_perform_iteration`, problem_solver/iteration.c:349-602. `start` is what precedes the limit for the trial
point (problem_solver/iteration.c:63-82), `rest` what follows; iterations may end before the trial point is prepared. -/
structure IterRun where
  start : Act
  trial : Option (Act × TrialRun)
  rest : Act

def TrialRun.act (phase : Bool) (t : TrialRun) : Act :=
  .seq (.timed (.trial phase) t.compute) (.seq t.evaluate (match t.correct with
    | none => .skip
    | some a => .timed (.trial phase) a))

/-- the iteration with its timer; the timer of the trial point solver is reset along with its limit (trial_point/time.c:5-14) -/
def IterRun.act (phase : Bool) (i : IterRun) : Act :=
  .timed (.problem phase) (.seq i.start (match i.trial with
    | none => i.rest
    | some (a, t) => .seq (.reset (.trial phase)) (.seq a (.seq (t.act phase) i.rest))))

/-- a pass of the solving loop: what happens before (solver/solve.c:108-135, problem_solver/solve.c:94-155), iterations
(problem_solver/solve.c:156-206), what happens after (solver/solve.c:136-243) -/
structure PassRun where
  phase : Bool
  before : Act
  iters : List IterRun
  after : Act

def PassRun.act (p : PassRun) : Act :=
  .seq p.before (.seq (.catchTime (Act.seqAll (p.iters.map (IterRun.act p.phase)))) p.after)

/-- a call of `sleqp_solver_solve` (solver/solve.c:256-298): passes, what follows them (restoring the original point, polishing, callbacks), and
the timers shown (solver/print.c:136-200, trial_point/print.c:3-26, cauchy/standard_cauchy.c:1489-1510) -/
structure SolveRun where
  passes : List PassRun
  finish : Act
  display : List TimerId

def SolveRun.act (c : SolveRun) : Act :=
  .seq (.timed .solver (.seq (Act.seqAll (c.passes.map PassRun.act)) c.finish)) (Act.seqAll (c.display.map .shown))

/-- several solves with one solver, and how each of them returned. A user may go on after an error. -/
def solveRuns : List SolveRun → Running → Option (List (Option EarlyRet) × Running)
  | [], s => some ([], s)
  | c :: rest, s =>
    match c.act.run s with
    | none => none
    | some (r, s') =>
      match solveRuns rest s' with
      | none => none
      | some (rs, s'') => some (r :: rs, s'')

end Sleqp

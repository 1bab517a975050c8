import Verif.Model.Iteration

/-!
Model of the outer solver loop: `/repo/src/main/solver/solve.c`,
`solver/phase.c`, `sleqp_solver_abort` (`solver.c`).

The optimization and the restoration problem solver are two states of the model
`PSolver`; the restoration solver exists from the beginning (the code creates it on
first use).  Points handed over between the phases come from the environment.
-/

namespace Sleqp

variable {K : Type*} [Field K] [LinearOrder K] {σ : Type*}

/-- `SLEQP_STATUS`, pub_types.h:62-73. -/
inductive SStatus
  | unknown | running | optimal | infeasible | unbounded
  | abortDeadpoint | abortIter | abortManual | abortTime
  deriving DecidableEq, Repr

/-- `SLEQP_SOLVER_PHASE`. -/
inductive Phase
  | optimization | restoration
  deriving DecidableEq, Repr

/-- What one pass of the outer loop reads from the rest of the world. -/
structure OuterEnv (K : Type*) where
  /-- time limit exhausted at the top of the loop -/
  timeUp : Bool
  /-- the passes of the problem solver run in this pass -/
  inner : Nat → IterEnv K
  /-- starting point of the restoration problem after switching to it -/
  restPt : PointData K
  /-- point of the original problem after switching back -/
  optPt : PointData K
  /-- user function rejects the point in `check_feasibility` -/
  checkReject : Bool
  /-- the user calls `sleqp_solver_abort` while the restoration solver is running -/
  userAbort : Bool

/-- Part of `struct SleqpSolver`, solver.h and the locals of `run_solving_loop`;
`remaining = none` is `SLEQP_NONE`. -/
structure Solver (K : Type*) (σ : Type*) where
  phase : Phase
  status : SStatus
  enableRest : Bool
  remaining : Option Nat
  iterations : Nat
  abortNext : Bool
  opt : PSolver K σ
  rest : PSolver K σ

/-- Result of one pass of the outer loop; `outOfFuel`: the problem solver needs more
passes than the model was given. -/
inductive OPass (K : Type*) (σ : Type*)
  | more (s : Solver K σ)
  | done (s : Solver K σ)
  | error
  | fail
  | outOfFuel

/-- iteration accounting, solver/solve.c:145-152; `none` if more iterations were used than
remained (the assert of line 113 would fail). -/
def Solver.account (s : Solver K σ) (elapsed : Nat) : Option (Solver K σ) :=
  match s.remaining with
  | none => some { s with iterations := s.iterations + elapsed }
  | some m =>
    if elapsed ≤ m then
      some { s with iterations := s.iterations + elapsed, remaining := some (m - elapsed) }
    else none

/-- The first switch (abort codes), solver/solve.c:154-171. -/
def abortCode : PStatus → Option SStatus
  | .abortIter => some .abortIter
  | .abortTime => some .abortTime
  | .abortDeadpoint => some .abortDeadpoint
  | _ => none

/-- The optimization branch, solver/solve.c:178-205, with
`sleqp_solver_toggle_phase`, solver/phase.c:193-222. -/
def optBranch (e : OuterEnv K) (st : PStatus) (s : Solver K σ) : OPass K σ :=
  match st with
  | .optimal => .done { s with status := .optimal }
  | .abortManual => .done { s with status := .abortManual }
  | .unbounded => .done { s with status := .unbounded }
  | .locallyInfeasible =>
    if s.enableRest then
      .more { s with phase := .restoration, rest := { s.rest with cur := e.restPt } }
    else .more s
  | _ => .fail

/-- The restoration branch, solver/solve.c:206-241: back to the optimization phase, then
`check_feasibility` (solver/solve.c:5-44) unless the solver was stopped by
`on_restoration_solver_accepted_iterate` (solver/phase.c:6-37). -/
def restBranch (p : Params K) (e : OuterEnv K) (st : PStatus) (s : Solver K σ) : OPass K σ :=
  let s := { s with phase := .optimization, opt := { s.opt with cur := e.optPt } }
  match st with
  | .abortManual => .more s
  | .optimal =>
    let feasible := !e.checkReject && decide (e.optPt.feasRes ≤ p.feasTol)
    if feasible then .more s else .more { s with enableRest := false }
  | _ => .fail

/-- `sleqp_solver_abort`, solver.c:424-432: only the optimization solver is told. -/
def Solver.userAbort (s : Solver K σ) : Solver K σ :=
  { s with abortNext := true, opt := { s.opt with abortNext := true } }

/-- The switch from the restoration phase after the loop, solver/solve.c:248-251. -/
def Solver.leave (s : Solver K σ) (e : OuterEnv K) : Solver K σ :=
  match s.phase with
  | .optimization => s
  | .restoration => { s with phase := .optimization, opt := { s.opt with cur := e.optPt } }

/-- Setting the iteration number of a problem solver before it runs, solver/solve.c:130-134. -/
def PSolver.atIter (s : PSolver K σ) (n : Nat) : PSolver K σ := { s with iteration := n }

/-- The optimization solver after a run. -/
def Solver.withOpt (s : Solver K σ) (o : PSolver K σ) : Solver K σ := { s with opt := o }

/-- The restoration solver after a run. -/
def Solver.withRest (s : Solver K σ) (r : PSolver K σ) : Solver K σ := { s with rest := r }

/-- The solver on entry of the loop, solver/solve.c:60-94. -/
def Solver.initial (s : Solver K σ) (max : Option Nat) (enableRest : Bool) : Solver K σ :=
  { s with iterations := 0, remaining := max, enableRest := enableRest }

/-- One pass of the loop of `run_solving_loop`, solver/solve.c:95-254. `pO`, `pR`: settings
and sizes for the two problems. -/
def outerPass (pO pR : Params K) (R : Rule K σ) (fuel : Nat) (e : OuterEnv K) (s : Solver K σ) :
    OPass K σ :=
  if e.timeUp then .done ({ s with status := .abortTime }.leave e)
  else if s.remaining = some 0 then .done ({ s with status := .abortIter }.leave e)
  else
    match s.phase with
    | .optimization =>
      match problemSolve pO R s.remaining s.enableRest e.inner fuel
          (s.opt.atIter s.iterations) with
      | .outOfFuel => .outOfFuel
      | .error => .error
      | .fail => .fail
      | .done _ o =>
        match (s.withOpt o).account o.elapsed with
        | none => .fail
        | some s1 =>
          match abortCode o.status with
          | some st => .done ({ s1 with status := st }.leave e)
          | none => optBranch e o.status s1
    | .restoration =>
      match problemSolve pR R s.remaining s.enableRest e.inner fuel
          (s.rest.atIter s.iterations) with
      | .outOfFuel => .outOfFuel
      | .error => .error
      | .fail => .fail
      | .done _ r =>
        let s0 := if e.userAbort then s.userAbort else s
        match (s0.withRest r).account r.elapsed with
        | none => .fail
        | some s1 =>
          match abortCode r.status with
          | some st => .done ({ s1 with status := st }.leave e)
          | none => restBranch pO e r.status s1

/-- Result of the outer loop. -/
inductive SOut (K : Type*) (σ : Type*)
  | outOfFuel
  | done (s : Solver K σ)
  | error
  | fail

/-- The outer loop; `fuel` bounds the passes of the model, `innerFuel` those of each
problem solver run. -/
def outerLoop (pO pR : Params K) (R : Rule K σ) (innerFuel : Nat) (env : Nat → OuterEnv K) :
    Nat → Nat → Solver K σ → SOut K σ
  | 0, _, _ => .outOfFuel
  | fuel + 1, k, s =>
    match outerPass pO pR R innerFuel (env k) s with
    | .more s' => outerLoop pO pR R innerFuel env fuel (k + 1) s'
    | .done s' => .done s'
    | .error => .error
    | .fail => .fail
    | .outOfFuel => .outOfFuel

/-- `run_solving_loop`, solver/solve.c:95-254, from the initial point (already set in
`s.opt`; a rejected initial point is an error). -/
def runSolvingLoop (pO pR : Params K) (R : Rule K σ) (max : Option Nat) (enableRest initReject : Bool)
    (innerFuel : Nat) (env : Nat → OuterEnv K) (fuel : Nat) (s : Solver K σ) : SOut K σ :=
  if initReject then .error
  else outerLoop pO pR R innerFuel env fuel 0
    (s.initial max enableRest)

end Sleqp

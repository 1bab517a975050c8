import Mathlib.Tactic.TypeStar

/-!
Model of the order in which the solver sets the value of the function, evaluates it and uses what was
evaluated: `/repo/src/main/problem_solver/{iteration,step,solve}.c`, `util.c`, `deriv_check.c`, the part of
`trial_point.c` computing second-order corrections and the handler of accepted iterates in `solver.c`.

Points are elements of an arbitrary type `P`; a point of the preprocessed problem and the corresponding point
of the original problem are the same element.  Instead of numbers, an iterate stores for every part (objective,
gradient, ...) the point at which the function was when the part was evaluated into it.  Whatever the solver
computes from numbers (trial points, acceptance of steps, sizes of corrections) and whatever the function decides
(rejections) is an arbitrary environment.
-/

namespace Sleqp

variable {P : Type*}

/-- `SLEQP_VALUE_REASON`, pub_func.h:32-48. -/
inductive ValReason
  | none | init | checkingDeriv | accepted | trying | tryingSoc | rejected
  deriving DecidableEq, Repr

/-- What can be evaluated at the value of a function; `hess` are Hessian products. -/
inductive EvalPart
  | obj | grad | cons | jac | hess
  deriving DecidableEq, Repr

/-- What happens at the function, in order: its value is set (with the answer whether it rejects the value), or
a part is evaluated, to be used as the part at the point `x`; and the readings by the solver of a part of an
iterate whose primal is `x`, where the part was evaluated at `src`. -/
inductive EvalCall (P : Type*)
  | set (x : P) (reason : ValReason) (rejects : Bool)
  | eval (part : EvalPart) (x : P)
  | read (part : EvalPart) (x : P) (src : Option P)
  deriving DecidableEq, Repr

/-- `SleqpIterate`, iterate.c: the primal point, and the point at which each part was evaluated last. -/
structure EvalSlot (P : Type*) where
  x : P
  src : EvalPart → Option P

/-- The value of the function, the two iterates of `SleqpProblemSolver` and what happened so far. -/
structure EvalState (P : Type*) where
  func : Option P
  iterate : EvalSlot P
  trial : EvalSlot P
  log : List (EvalCall P)

/-- an iterate whose part `p` was evaluated at `v` -/
def EvalSlot.put (sl : EvalSlot P) (p : EvalPart) (v : Option P) : EvalSlot P :=
  { sl with src := fun q => if q = p then v else sl.src q }

/-- `sleqp_problem_set_value`, problem.c:460-474. -/
def EvalState.setValue (s : EvalState P) (x : P) (r : ValReason) (rejects : Bool) : EvalState P :=
  { s with func := some x, log := s.log ++ [.set x r rejects] }

/-- an evaluation whose result is used as the part at `x` without being stored in one of the two iterates -/
def EvalState.evalFor (s : EvalState P) (p : EvalPart) (x : P) : EvalState P :=
  { s with log := s.log ++ [.eval p x] }

/-- evaluation into the current iterate (`sleqp_problem_eval`, problem.c:507-535, one part) -/
def EvalState.evalIterate (s : EvalState P) (p : EvalPart) : EvalState P :=
  { s with iterate := s.iterate.put p s.func, log := s.log ++ [.eval p s.iterate.x] }

/-- evaluation into the trial iterate (`sleqp_problem_eval`, problem.c:507-535, one part) -/
def EvalState.evalTrial (s : EvalState P) (p : EvalPart) : EvalState P :=
  { s with trial := s.trial.put p s.func, log := s.log ++ [.eval p s.trial.x] }

/-- reading of a part of the current iterate -/
def EvalState.readIterate (s : EvalState P) (p : EvalPart) : EvalState P :=
  { s with log := s.log ++ [.read p s.iterate.x (s.iterate.src p)] }

/-- reading of a part of the trial iterate -/
def EvalState.readTrial (s : EvalState P) (p : EvalPart) : EvalState P :=
  { s with log := s.log ++ [.read p s.trial.x (s.trial.src p)] }

/-- All parts stored in an iterate, in the order of `sleqp_problem_eval`, problem.c:507-535. -/
def storedParts : List EvalPart := [.obj, .grad, .cons, .jac]

/-- What is fixed during a solve: whether there are constraints, the setting asking for second-order
corrections, whether the function is dynamic, whether the user registered a callback for accepted iterates and
whether the problem was preprocessed. -/
structure EvalParams where
  hasCons : Bool
  performSoc : Bool
  dynamic : Bool
  callback : Bool
  preprocess : Bool

/-- Everything an iteration takes from elsewhere. -/
structure StepEnv (P : Type*) where
  /-- the iteration ends the solve before a trial point is computed (optimal, unbounded) -/
  done : Bool
  /-- number of refinements of the iterate of a dynamic function -/
  refinements : Nat
  /-- the iteration ends the solve after the trial point was computed (local infeasibility) -/
  stop : Bool
  /-- the trial point, whether the function rejects it and whether the step rule accepts it -/
  trialX : P
  trialRejects : Bool
  trialOk : Bool
  /-- the second-order correction, likewise; whether it is refused for its size (or, for dynamic
  functions, for the accuracy of the function) -/
  socX : P
  socRefused : Bool
  socRejects : Bool
  socOk : Bool
  /-- whether the function rejects a point where this is not allowed -/
  acceptRejects : Bool
  resetRejects : Bool
  restoreRejects : Bool

/-- `sleqp_set_and_evaluate`, util.c:12-48, for the current iterate: the rejection is only reported, all
parts are evaluated nevertheless. -/
def EvalState.setAndEvaluate (s : EvalState P) (r : ValReason) (rejects : Bool) : EvalState P :=
  storedParts.foldl EvalState.evalIterate (s.setValue s.iterate.x r rejects)

/-- `set_initial_iterate`, solver/solve.c:57-93: returned is what happened, and whether the solve goes on; it ends with an
error if the initial value is rejected. -/
def EvalState.start (s : EvalState P) (rejects : Bool) : EvalState P × Bool :=
  (s.setAndEvaluate .init rejects, !rejects)

/-- What the check of the derivatives with respect to one variable takes from elsewhere: the check point, whether
it is rejected, the parts evaluated there, and whether the iterate is rejected afterwards. -/
structure CheckEnv (P : Type*) where
  x : P
  rejects : Bool
  parts : List EvalPart
  resetRejects : Bool

/-- One variable of the derivative check, `eval_and_check_deriv`, deriv_check.c:641-671. `none` is the error if
the iterate is rejected after the check. The evaluations are used as the parts at the check point. -/
def EvalState.checkAt (c : CheckEnv P) (s : EvalState P) : Option (EvalState P) :=
  let s := s.setValue c.x .checkingDeriv c.rejects
  let s := if c.rejects then s else c.parts.foldl (fun s p => s.evalFor p c.x) s
  let s := s.setValue s.iterate.x .checkingDeriv c.resetRejects
  if c.resetRejects then none else some s

/-- Computation of a trial point, `sleqp_trial_point_solver_compute_trial_point`, trial_point.c:936-978: all
parts of the iterate are read, Hessian products of the function are used as those at the iterate; each
refinement (`refine_iterate`, trial_point.c:812-836) evaluates the parts anew. -/
def EvalState.computeTrial (s : EvalState P) : Nat → EvalState P
  | 0 => (storedParts.foldl EvalState.readIterate s).evalFor .hess s.iterate.x
  | n + 1 =>
    EvalState.computeTrial
      (storedParts.foldl EvalState.evalIterate
        ((storedParts.foldl EvalState.readIterate s).evalFor .hess s.iterate.x)) n

/-- `evaluate_at_trial_iterate`, problem_solver/iteration.c:15-43, with the reading of the result by
`sleqp_merit_func` if the point is not rejected. The reason is the same for second-order corrections. -/
def EvalState.tryPoint (s : EvalState P) (rejects : Bool) : EvalState P :=
  let s := s.setValue s.trial.x .trying rejects
  if rejects then s
  else [EvalPart.obj, .cons].foldl EvalState.readTrial ([EvalPart.obj, .cons].foldl EvalState.evalTrial s)

/-- `sleqp_trial_point_solver_compute_trial_point_soc`, trial_point.c:1075-1098: the constraint values of the
trial iterate are read (soc.c:20-68); for a dynamic function, Hessian products are computed for the iterate
and the trial point is not moved. -/
def EvalState.computeSoc (pr : EvalParams) (e : StepEnv P) (s : EvalState P) : EvalState P :=
  let s := (s.readIterate .cons).readTrial .cons
  if pr.dynamic then
    s.evalFor .hess s.iterate.x
  else
    { s with trial := { s.trial with x := e.socX } }

/-- `sleqp_problem_solver_reject_step`, problem_solver/step.c:42-54. -/
def EvalState.rejectStep (e : StepEnv P) (s : EvalState P) : Option (EvalState P) :=
  let s := s.setValue s.iterate.x .rejected e.resetRejects
  if e.resetRejects then none else some s

/-- `sleqp_solver_restore_original_iterate`, solver.c:87-96 with `sleqp_restoration_restore_iterate`,
preprocessor/restore.c:738-823: with a preprocessed problem the function is set to the iterate of the problem
solver and evaluated there. -/
def EvalState.restoreOriginal (pr : EvalParams) (rejects : Bool) (s : EvalState P) : Option (EvalState P) :=
  if pr.preprocess then
    let s := s.setValue s.iterate.x .none rejects
    let s := storedParts.foldl (fun s p => s.evalFor p s.iterate.x) s
    if rejects then none else some s
  else some s

/-- `sleqp_problem_solver_accept_step`, problem_solver/step.c:56-131 with `on_problem_solver_accepted_iterate`,
solver.c:241-275, which is called before the iterates are swapped. -/
def EvalState.acceptStep (pr : EvalParams) (e : StepEnv P) (s : EvalState P) : Option (EvalState P) :=
  let s := s.setValue s.trial.x .accepted e.acceptRejects
  if e.acceptRejects then none
  else
    let s := [EvalPart.grad, .cons, .jac].foldl EvalState.evalTrial s
    (if pr.callback then s.restoreOriginal pr e.restoreRejects else some s).map
      fun s => { s with iterate := s.trial, trial := s.iterate }

/-- `sleqp_problem_solver_perform_iteration`, problem_solver/iteration.c:349-602: `none` is an error raised
because the function rejects where it must not; the flag is set if the step was accepted. -/
def EvalState.iteration (pr : EvalParams) (e : StepEnv P) (s : EvalState P) : Option (EvalState P × Bool) :=
  let s := [EvalPart.obj, .grad, .cons, .jac].foldl EvalState.readIterate s
  if e.done then some (s, false)
  else
    let s := s.computeTrial (if pr.dynamic then e.refinements else 0)
    let s : EvalState P := { s with trial := { s.trial with x := e.trialX } }
    if e.stop then some (s, false)
    else
      let s := s.tryPoint e.trialRejects
      if !e.trialRejects && e.trialOk then (s.acceptStep pr e).map (·, true)
      else if pr.hasCons && pr.performSoc then
        let s := s.computeSoc pr e
        if e.socRefused then (s.rejectStep e).map (·, false)
        else
          let s := s.tryPoint e.socRejects
          if !e.socRejects && e.socOk then (s.acceptStep pr e).map (·, true)
          else (s.rejectStep e).map (·, false)
      else (s.rejectStep e).map (·, false)

/-- The derivative check and the iterations of `sleqp_problem_solver_solve`, problem_solver/solve.c:94-214,
the environments in order; afterwards `sleqp_solver_solve` restores the original iterate, solver/solve.c:256-298. -/
def EvalState.solve (pr : EvalParams) (checks : List (CheckEnv P)) (envs : List (StepEnv P)) (restoreRejects : Bool)
    (s : EvalState P) : Option (EvalState P) :=
  (checks.foldlM (fun (s : EvalState P) c => s.checkAt c) s).bind fun s =>
  (envs.foldlM (fun (s : EvalState P) e => (s.iteration pr e).map Prod.fst) s).bind fun s =>
  s.restoreOriginal pr restoreRejects

end Sleqp

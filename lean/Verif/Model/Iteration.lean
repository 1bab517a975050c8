import Verif.Model.StepRule

/-!
Model of the solver loop: `/repo/src/main/problem_solver.c`,
`problem_solver/{iteration,trust_radius,solve,step}.c`.

The numerical components called by an iteration (trial point computation,
function evaluation by the user, second-order correction) are an arbitrary
environment: `IterEnv` lists everything the loop reads from them.  An iterate is
represented by the numbers the loop reads (`PointData`).  Printing, logging,
timers and the derivative check are not modelled; a time limit is an arbitrary
yes/no answer at each of the two checks.
-/

namespace Sleqp

variable {K : Type*} [Field K] [LinearOrder K]

/-! ### trust radii -/

/-- `sleqp_problem_solver_update_lp_trust_radius`, problem_solver/trust_radius.c:5-45. -/
def updateLpTrustRadius (accepted : Bool) (trialInf cauchyInf : K) (fullCauchy : Bool) (r : K) : K :=
  if accepted then
    let lhs := max (trialInf * (6 / 5)) (cauchyInf * (6 / 5))
    let lhs := max lhs ((1 / 10) * r)
    let r' := if fullCauchy then r * 7 else r
    min lhs r'
  else
    min (max ((1 / 2) * trialInf) ((1 / 10) * r)) r

/-- `sleqp_problem_solver_update_trust_radius`, problem_solver/trust_radius.c:47-83. -/
def updateTrustRadius (eps ratio : K) (accepted : Bool) (norm r : K) : K :=
  if ratio ≥ 9 / 10 then max r (7 * norm)
  else if ratio ≥ 3 / 10 then max r (2 * norm)
  else if accepted then r
  else if isZero norm eps then r * (1 / 2)
  else min ((1 / 2) * r) ((1 / 2) * norm)

/-- `SLEQP_INITIAL_TR_CHOICE`, pub_types.h. -/
inductive InitialTr
  | narrow
  | wide
  deriving DecidableEq, Repr

/-- `compute_initial_trust_radius`, problem_solver.c:82-110: (radius, LP radius);
`sqrtN` is `sqrt(num_vars)`; `none` for the division by zero or the failing
assert `lp_trust_radius < trust_radius`. -/
def initialTrustRadius (choice : InitialTr) (sqrtN : K) : Option (K × K) :=
  match choice with
  | .narrow =>
    (cdiv ((8 / 10) * 1) sqrtN).bind fun lp => if lp < 1 then some (1, lp) else none
  | .wide => if 8 / 10 < sqrtN then some (sqrtN, 8 / 10) else none

/-! ### state -/

/-- `SLEQP_PROBLEM_SOLVER_STATUS`, problem_solver_types.h:6-17. -/
inductive PStatus
  | unknown | running | optimal | unbounded | locallyInfeasible
  | abortDeadpoint | abortIter | abortManual | abortTime
  deriving DecidableEq, Repr

/-- `SLEQP_STEPTYPE`, pub_types.h. -/
inductive StepType
  | none | accepted | acceptedFull | acceptedSoc | rejected
  deriving DecidableEq, Repr

/-- The numbers of an iterate read by the loop: objective, total violation
(`sleqp_total_violation`), feasibility / slackness / stationarity residuum. -/
structure PointData (K : Type*) where
  objVal : K
  totalViol : K
  feasRes : K
  slackRes : K
  statRes : K

/-- `sleqp_merit_func`, merit.c:59-78 on the summary of an iterate. -/
def PointData.merit (pt : PointData K) (penalty : K) : K := pt.objVal + penalty * pt.totalViol

/-- Settings read by the loop, and the number of constraints. `performNewton` is
`use_quadratic_model && perform_newton_step`. -/
structure Params (K : Type*) where
  eps : K
  feasTol : K
  slackTol : K
  statTol : K
  objLower : K
  deadpoint : K
  performNewton : Bool
  performSoc : Bool
  numCons : Nat

/-- Return code of the calls made inside an iteration. -/
inductive Ret
  | ok | abortTime | error
  deriving DecidableEq, Repr

/-- What one loop pass reads from the rest of the world. -/
structure IterEnv (K : Type*) where
  /-- time limit exhausted before / after the iteration -/
  timeBefore : Bool
  timeAfter : Bool
  /-- return code of the calls in the iteration -/
  ret : Ret
  /-- `sleqp_trial_point_solver_compute_trial_point` -/
  modelTrial : K
  failedEqp : Bool
  fullCauchy : Bool
  trialReject : Bool
  lpNorm : K
  trialNorm : K
  trialInf : K
  cauchyInf : K
  globalReset : Bool
  newPenalty : K
  /-- evaluation at the trial point -/
  userReject : Bool
  trialPt : PointData K
  /-- second-order correction and evaluation there -/
  socReject : Bool
  socNorm : K
  socUserReject : Bool
  socPt : PointData K
  /-- a callback (or user function) called for an abort during the iteration -/
  abortReq : Bool
  /-- slackness and stationarity residuum of the current point with the multipliers that the
  iteration stores in it -/
  curSlack : K
  curStat : K

/-- A step rule with internal state `σ`: `sleqp_step_rule_apply`, step/step_rule.c:51-67. -/
structure Rule (K : Type*) (σ : Type*) where
  apply : σ → K → K → K → Option (Bool × K × σ)

/-- step/step_rule_direct.c -/
def Rule.direct (eps accepted : K) : Rule K Unit where
  apply _ it ex mo := (directApply eps accepted it ex mo).map fun r => (r.1, r.2, ())

/-- step/step_rule_window.c -/
def Rule.window (inf accepted : K) : Rule K (WindowState K) where
  apply st it ex mo := windowApply inf accepted st it ex mo

/-- step/step_rule_minstep.c -/
def Rule.minstep (accepted : K) : Rule K (MinState K) where
  apply st it ex mo := minApply accepted st it ex mo

/-- Part of `struct SleqpProblemSolver`, problem_solver.h:14-91. -/
structure PSolver (K : Type*) (σ : Type*) where
  status : PStatus
  stepType : StepType
  feasRes : K
  slackRes : K
  statRes : K
  trustRadius : K
  lpTrustRadius : K
  penalty : K
  iteration : Nat
  elapsed : Nat
  numAccepted : Nat
  numSoc : Nat
  numRejected : Nat
  numFailedEqp : Nat
  numFeasible : Nat
  numResets : Nat
  boundaryStep : Bool
  abortNext : Bool
  meritValue : K
  abortLocal : Bool
  rule : σ
  cur : PointData K

variable {σ : Type*}

/-- `sleqp_problem_solver_create`, problem_solver.c:13-80 (zero initialisation, in
particular `feas_res = 0`) followed by `sleqp_problem_solver_reset`, problem_solver.c:112-123. -/
def PSolver.create (choice : InitialTr) (sqrtN : K) (rule : σ) (cur : PointData K) :
    Option (PSolver K σ) :=
  (initialTrustRadius choice sqrtN).map fun r =>
    { status := .unknown, stepType := .none, feasRes := 0, slackRes := 0, statRes := 0
      trustRadius := r.1, lpTrustRadius := r.2, penalty := 10, iteration := 0, elapsed := 0
      numAccepted := 0, numSoc := 0, numRejected := 0, numFailedEqp := 0, numFeasible := 0
      numResets := 0, boundaryStep := false, abortNext := false, meritValue := 0
      abortLocal := false, rule := rule, cur := cur }

/-! ### one iteration -/

/-- `check_for_unboundedness`, problem_solver/iteration.c:261-284; it reads the stored
`feas_res`. -/
def PSolver.checkUnbounded (p : Params K) (s : PSolver K σ) : Bool :=
  decide (s.cur.objVal ≤ p.objLower) && decide (s.feasRes ≤ p.feasTol)

/-- `prepare_iteration`, problem_solver/iteration.c:128-145 with `set_residua` (45-62) and
`update_feasible_steps` (106-123). -/
def PSolver.prepare (p : Params K) (s : PSolver K σ) : PSolver K σ :=
  { s with
    meritValue := s.cur.merit s.penalty
    slackRes := s.cur.slackRes
    feasRes := s.cur.feasRes
    statRes := s.cur.statRes
    numFeasible := if s.cur.feasRes ≤ p.feasTol then s.numFeasible + 1 else s.numFeasible }

/-- `check_for_optimality`, problem_solver/iteration.c:286-302 with
`sleqp_iterate_is_optimal`, iterate.c:527-564, on numbers. -/
def PSolver.checkOptimal (p : Params K) (s : PSolver K σ) : Bool :=
  if !decide (s.feasRes ≤ p.feasTol) then false
  else if decide (s.statRes ≥ p.statTol) then false
  else if decide (s.slackRes ≥ p.slackTol) then false
  else true

/-- `sleqp_trial_point_solver_locally_infeasible`, trial_point.c:440-475; the
feasibility residuum was passed by `prepare_trial_point_solver`. -/
def locallyInfeasible (p : Params K) (feasRes : K) (e : IterEnv K) : Bool :=
  if feasRes ≤ p.feasTol then false
  else if !isZero e.lpNorm p.eps then false
  else if !isZero e.trialNorm p.eps then false
  else true

/-- Result of the two acceptance attempts of an iteration. -/
structure Decision (K : Type*) (σ : Type*) where
  accepted : Bool
  ratio : K
  rule : σ
  stepType : StepType
  newPt : PointData K
  dAccepted : Nat
  dSoc : Nat
  dRejected : Nat

/-- The first attempt, problem_solver/iteration.c:417-463: (accepted, ratio, rule);
`reduction_ratio` starts as `SLEQP_NONE = -1`. -/
def tryTrial (R : Rule K σ) (s : PSolver K σ) (e : IterEnv K) : Option (Bool × K × σ) :=
  if e.trialReject then some (false, -1, s.rule)
  else if e.userReject then some (false, -1, s.rule)
  else R.apply s.rule s.meritValue (e.trialPt.merit s.penalty) e.modelTrial

/-- Second-order correction, problem_solver/iteration.c:494-565. -/
def trySoc (p : Params K) (R : Rule K σ) (s : PSolver K σ) (e : IterEnv K) (ratio : K) (rule : σ) :
    Option (Decision K σ) :=
  let rej (d : Nat) (ratio : K) (rule : σ) : Decision K σ :=
    { accepted := false, ratio := ratio, rule := rule, stepType := .rejected, newPt := s.cur
      dAccepted := 0, dSoc := 0, dRejected := d }
  let stepAccepted := !e.socReject
  let stepAccepted := if isGt e.socNorm (10 * s.trustRadius) p.eps then false else stepAccepted
  if stepAccepted then
    if e.socUserReject then some (rej 1 ratio rule)
    else
      (R.apply rule s.meritValue (e.socPt.merit s.penalty) e.modelTrial).map fun r =>
        if r.1 then
          { accepted := true, ratio := r.2.1, rule := r.2.2, stepType := .acceptedSoc
            newPt := e.socPt, dAccepted := 0, dSoc := 1, dRejected := 0 }
        else rej 1 r.2.1 r.2.2
  else some (rej 0 ratio rule)

/-- Acceptance logic, problem_solver/iteration.c:417-571. -/
def decideStep (p : Params K) (R : Rule K σ) (s : PSolver K σ) (e : IterEnv K) :
    Option (Decision K σ) :=
  (tryTrial R s e).bind fun r =>
    if r.1 then
      some { accepted := true, ratio := r.2.1, rule := r.2.2
             stepType := if e.fullCauchy then .acceptedFull else .accepted
             newPt := e.trialPt, dAccepted := 1, dSoc := 0, dRejected := 0 }
    else if 0 < p.numCons ∧ p.performSoc = true then trySoc p R s e r.2.1 r.2.2
    else
      some { accepted := false, ratio := r.2.1, rule := r.2.2, stepType := .rejected
             newPt := s.cur, dAccepted := 0, dSoc := 0, dRejected := 1 }

/-- The part of an iteration after the local infeasibility check (statistics, radii,
penalty, new iterate): problem_solver/iteration.c:413-606, with `update_trust_radii`
(145-191) and `update_penalty_stats` (193-211).  The model reports an abort request at
the end of the iteration. -/
def PSolver.finish (p : Params K) (R : Rule K σ) (s : PSolver K σ) (e : IterEnv K) :
    Option (PSolver K σ) :=
  (decideStep p R s e).map fun d =>
    { s with
      numFeasible := if e.globalReset then 0 else s.numFeasible
      numResets := if e.globalReset then s.numResets + 1 else s.numResets
      boundaryStep := isGeq e.trialNorm s.trustRadius p.eps
      stepType := d.stepType
      numAccepted := s.numAccepted + d.dAccepted
      numSoc := s.numSoc + d.dSoc
      numRejected := s.numRejected + d.dRejected
      elapsed := s.elapsed + 1
      iteration := s.iteration + 1
      trustRadius :=
        if p.performNewton then updateTrustRadius p.eps d.ratio d.accepted e.trialNorm s.trustRadius
        else s.trustRadius
      lpTrustRadius :=
        updateLpTrustRadius d.accepted e.trialInf e.cauchyInf e.fullCauchy s.lpTrustRadius
      penalty := e.newPenalty
      rule := d.rule
      cur := if d.accepted then d.newPt else s.cur
      abortNext := s.abortNext || e.abortReq }

/-- `estimate_dual_values`, trial_point/cauchy_step.c:19-31, called by
`sleqp_trial_point_solver_compute_trial_point`: the multipliers of the current iterate are
overwritten, whether or not the step is accepted; the stored residuals are not recomputed. -/
def PSolver.estimated (s : PSolver K σ) (e : IterEnv K) : PSolver K σ :=
  { s with cur := { s.cur with slackRes := e.curSlack, statRes := e.curStat } }

/-- `num_failed_eqp_steps` is counted, problem_solver/iteration.c:404, after the computation of
the trial point. -/
def PSolver.ready (p : Params K) (s : PSolver K σ) (e : IterEnv K) : PSolver K σ :=
  { (s.prepare p).estimated e with
    numFailedEqp := (s.prepare p).numFailedEqp + (if e.failedEqp then 1 else 0) }

/-- `sleqp_problem_solver_perform_iteration`, problem_solver/iteration.c:349-602; `none` for a
failed assert or a division by zero.  With a return code different from `ok` the calls
after the optimality check are abandoned (the exact point is not modelled; the multipliers may
have been overwritten by then). -/
def performIteration (p : Params K) (R : Rule K σ) (s : PSolver K σ) (e : IterEnv K) :
    Option (Ret × PSolver K σ) :=
  if s.status ≠ .running then none
  else if s.checkUnbounded p then some (.ok, { s with status := .unbounded })
  else
    let s1 := s.prepare p
    if s1.checkOptimal p then some (.ok, { s1 with status := .optimal })
    else if e.ret ≠ .ok then some (e.ret, s1.estimated e)
    else
      let s2 := s.ready p e
      if locallyInfeasible p s2.feasRes e && s2.abortLocal then
        some (.ok, { s2 with status := .locallyInfeasible, abortNext := s2.abortNext || e.abortReq })
      else (s2.finish p R e).map fun s3 => (.ok, s3)

/-! ### the loop -/

/-- Result of one pass of the main loop. `performed`: an iteration was run. -/
inductive Pass (K : Type*) (σ : Type*)
  | more (s : PSolver K σ)
  | done (performed : Bool) (s : PSolver K σ)
  | error
  | fail

/-- One pass of `while (true)`, problem_solver/solve.c:156-209; `max = none` is `SLEQP_NONE`. -/
def loopPass (p : Params K) (R : Rule K σ) (max : Option Nat) (e : IterEnv K) (s : PSolver K σ) :
    Pass K σ :=
  if e.timeBefore then .done false { s with status := .abortTime }
  else if max.any fun m => s.elapsed ≥ m then .done false { s with status := .abortIter }
  else if s.abortNext then .done false { s with status := .abortManual }
  else
    match performIteration p R s e with
    | none => .fail
    | some (ret, s') =>
      if ret = .abortTime ∨ e.timeAfter = true then .done true { s' with status := .abortTime }
      else if ret ≠ .ok then .error
      else if s'.lpTrustRadius ≤ p.deadpoint ∨ s'.trustRadius ≤ p.deadpoint then
        .done true { s' with status := .abortDeadpoint }
      else if s'.status ≠ .running then .done true s'
      else .more s'

/-- Result of the loop: `passes` is the number of iterations run. -/
inductive Out (K : Type*) (σ : Type*)
  | outOfFuel
  | done (passes : Nat) (s : PSolver K σ)
  | error
  | fail

/-- The main loop, with the pass number `k`; `fuel` bounds the number of passes of the
model (the C loop has none). -/
def loop (p : Params K) (R : Rule K σ) (max : Option Nat) (env : Nat → IterEnv K) :
    Nat → Nat → PSolver K σ → Out K σ
  | 0, _, _ => .outOfFuel
  | fuel + 1, k, s =>
    match loopPass p R max (env k) s with
    | .more s' => loop p R max env fuel (k + 1) s'
    | .done performed s' => .done (if performed then k + 1 else k) s'
    | .error => .error
    | .fail => .fail

/-- State after the preparation of `sleqp_problem_solver_solve`, problem_solver/solve.c:94-214. -/
def PSolver.startSolve (s : PSolver K σ) (abortLocal : Bool) : PSolver K σ :=
  { s with
    abortLocal := abortLocal, status := .running, abortNext := false, elapsed := 0
    numAccepted := 0, numSoc := 0, numRejected := 0, numFailedEqp := 0, stepType := .none }

/-- `sleqp_problem_solver_solve`, problem_solver/solve.c:94-214. -/
def problemSolve (p : Params K) (R : Rule K σ) (max : Option Nat) (abortLocal : Bool)
    (env : Nat → IterEnv K) (fuel : Nat) (s : PSolver K σ) : Out K σ :=
  loop p R max env fuel 0 (s.startSolve abortLocal)

end Sleqp

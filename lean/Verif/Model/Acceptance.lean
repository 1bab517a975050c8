import Verif.Model.TrialPoint

/-!
Model of the way an iteration of the problem solver decides on its trial step, `/repo/src/main/problem_solver/iteration.c`: the merit value of the iterate, the
trial point and the merit value predicted for it (`Model/TrialPoint`), the merit value at the trial point, and the direct step rule (`Model/StepRule`, the default).

Second-order corrections, time limits, termination tests and points rejected by the user are left out (see `Model/Iteration`).
-/

namespace Sleqp
variable {K : Type*} [Field K] [LinearOrder K]

/-- what the problem solver hands to the trial point solver besides the iterate -/
structure StepState (K : Type*) where
  radius : K
  lpRadius : K
  penalty : K
  feasRes : K
  allowReset : Bool

/-- `prepare_trial_point_solver`, problem_solver/iteration.c:64-107, with `sleqp_trial_point_solver_set_iterate`, trial_point.c:340-355,
`sleqp_trial_point_solver_set_penalty_info`, trial_point.c:357-367, `sleqp_trial_point_solver_set_trust_radius`, trial_point.c:369-378,
`sleqp_trial_point_solver_set_lp_trust_radius`, trial_point.c:380-389, and `sleqp_trial_point_solver_set_penalty`, trial_point.c:391-414. The merit value computed first,
for the penalty parameter set before, is overwritten. -/
def TrialSolver.prepare (e : LpEnv K) (p : StepState K) (it : Iterate K) (t : TrialSolver K) : Option (TrialSolver K) :=
  (meritFunc e.numCons e.bounds it p.penalty).map fun m =>
    { t with
      cd := { t.cd with iterate := it, radius := p.lpRadius, penalty := p.penalty, merit := m, feasRes := p.feasRes, allowReset := p.allowReset, performedReset := false }
      trustRadius := p.radius }

/-- the outcome: `iterateMerit` is `exact_iterate_value`, `trialMerit` is `exact_trial_value`, `trial.merit` is `model_trial_value` -/
structure TrialDecision (K : Type*) where
  trial : TrialPt K
  iterateMerit : K
  trialMerit : K
  accepted : Bool
  ratio : K

/-- `sleqp_problem_solver_perform_iteration`, problem_solver/iteration.c:349-602, from the evaluation of the merit function at the trial point on. `m` is the merit
value computed in `prepare_iteration`, problem_solver/iteration.c:128-145; `values` are objective and constraints at the trial point. The penalty parameter is still the
old one: the new one is fetched later, problem_solver/iteration.c:582-583. -/
def decideOn (e : LpEnv K) (eps accepted penalty m : K) (it : Iterate K) (values : K × Vec K) (o : TrialPt K) : Option (TrialDecision K) :=
  (meritFunc e.numCons e.bounds { it with primal := o.point, objVal := values.1, consVal := values.2 } penalty).bind fun mt =>
  (directApply eps accepted m mt o.merit).map fun r => ⟨o, m, mt, r.1, r.2⟩

/-- An iteration with a function evaluated exactly. `func` are objective and constraints as functions of the point. -/
def decideExact (e : LpEnv K) (c : TrialCalls K) (s : TrialSettings K) (eps : K) (p : StepState K) (it : Iterate K) (func : Vec K → K × Vec K) (t : TrialSolver K)
    (out : Vec K) : Option (TrialDecision K) :=
  (meritFunc e.numCons e.bounds it p.penalty).bind fun m =>
  (t.prepare e p it).bind fun t1 =>
  (t1.compute e c s out).bind fun o =>
    decideOn e eps s.acceptedReduction p.penalty m it (func o.point) o

/-- the error bound a dynamic function has been told when `solver_refine_step`, trial_point.c:838-910, returns; the arguments are those of
`TrialSolver.refineLoop`, and the bound it has been told before -/
def TrialSolver.refineBound (e : LpEnv K) (calls : Nat → TrialCalls K) (eval : Nat → K → DynValues K) (s : TrialSettings K) : Nat → Nat → K → K → TrialPt K → Option K
  | 0, _, _, _, _ => none
  | fuel + 1, k, err, b, o =>
    let bound := requiredErrorBound s.acceptedReduction (o.solver.cd.merit - o.merit)
    if err ≤ bound then some b
    else
      (o.solver.refine e (eval k bound)).bind fun t =>
      (t.compute e (calls k) s o.point).bind fun o' =>
        refineBound e calls eval s fuel (k + 1) (eval k bound).err bound { o' with failed := o.failed }

/-- An iteration with a dynamic function. `err` is the error it reported for the current values of the iterate, `b` the bound it has been told, `eval` the result of further
evaluations there and `func b x` the result of the evaluation at the trial point, with error bound `b`. Returns the bound in force at the end. -/
def decideDyn (e : LpEnv K) (c : TrialCalls K) (calls : Nat → TrialCalls K) (eval : Nat → K → DynValues K) (s : TrialSettings K) (fuel : Nat) (eps : K) (p : StepState K)
    (it : Iterate K) (err b : K) (func : K → Vec K → K × Vec K) (t : TrialSolver K) (out : Vec K) : Option (TrialDecision K × K) :=
  (meritFunc e.numCons e.bounds it p.penalty).bind fun m =>
  (t.prepare e p it).bind fun t1 =>
  (t1.compute e c s out).bind fun o1 =>
  (TrialSolver.refineLoop e calls eval s fuel 0 err o1).bind fun o =>
  (TrialSolver.refineBound e calls eval s fuel 0 err b o1).bind fun b' =>
  (decideOn e eps s.acceptedReduction p.penalty m it (func b' o.1.point) o.1).map fun d => (d, b')

end Sleqp

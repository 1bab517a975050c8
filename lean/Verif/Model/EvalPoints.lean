import Verif.Model.Phases
import Verif.Model.Soc
import Verif.Model.DerivCheck

/-!
Model of the points at which a solve sets the value of the user's function: the histories of `Verif.Model.Phases` with points given by vectors, where the initial point, trial
points, second-order corrections, lifted points and check points are those computed by the code from arbitrary steps.
-/

namespace Sleqp

variable {K : Type*} [Field K] [LinearOrder K]

/-- What the points depend on: the numbers of variables and constraints, `SLEQP_SETTINGS_REAL_ZERO_EPS`, `SLEQP_SETTINGS_REAL_DERIV_PERTURBATION` and the bounds of the problem
handed to the problem solver. -/
structure PointEnv (K : Type*) where
  numVars : Nat
  numCons : Nat
  zeroEps : K
  perturbation : K
  bounds : Bounds K

/-- An iteration: as `StepEnv`, with steps in place of points. They are whatever trial_point.c computes; `tmp` and `socTmp` are the contents of `initial_trial_point`. -/
structure StepData (K : Type*) where
  done : Bool
  refinements : Nat
  stop : Bool
  step : Vec K
  tmp : Vec K
  trialRejects : Bool
  trialOk : Bool
  socStep : Vec K
  socTmp : Vec K
  socRefused : Bool
  socRejects : Bool
  socOk : Bool
  acceptRejects : Bool
  resetRejects : Bool
  restoreRejects : Bool

/-- The trial point and the second-order correction, both computed by `compute_trial_iterate_from_step`, trial_point.c:521-544, from the current iterate, the latter into the
vector holding the former. -/
def StepData.env (zeroEps : K) (p : Bounds K) (s : EvalState (Vec K)) (e : StepData K) : Option (StepEnv (Vec K)) :=
  (trialFromStep zeroEps p s.iterate.x e.step e.tmp s.trial.x).bind fun x =>
  (trialFromStep zeroEps p s.iterate.x e.socStep e.socTmp x).map fun y =>
    ⟨e.done, e.refinements, e.stop, x, e.trialRejects, e.trialOk, y, e.socRefused, e.socRejects, e.socOk, e.acceptRejects, e.resetRejects, e.restoreRejects⟩

/-- One variable of a derivative check. -/
structure CheckData where
  var : Nat
  rejects : Bool
  parts : List EvalPart
  resetRejects : Bool

/-- The check point is the current iterate with the variable perturbed, `create_check_iterate`, deriv_check.c:227-248 (`n`: number of variables of the checked problem). -/
def CheckData.env (q : PointEnv K) (n : Nat) (s : EvalState (Vec K)) (c : CheckData) : Option (CheckEnv (Vec K)) :=
  (dcPoint ⟨n, 0, fun _ => false, fun _ => 0, fun _ _ => none, fun _ _ => none, fun _ _ => none, fun _ _ _ _ => none, q.perturbation, 0, q.zeroEps⟩ s.iterate.x c.var
    (Vec.create n 0)).map fun x => ⟨x, c.rejects, c.parts, c.resetRejects⟩

/-- The bounds of the restoration problem, which has no constraints, `sleqp_restoration_problem_create`, restoration.c:439-489. -/
def PointEnv.restBounds (q : PointEnv K) : Option (Bounds K) :=
  (restBound q.bounds.varsLb q.bounds.consLb).bind fun lb =>
  (restBound q.bounds.varsUb q.bounds.consUb).map fun ub => ⟨lb, ub, Vec.create 0 0, Vec.create 0 0⟩

/-- The variables of a lifted point, `split_primal`, restoration.c:34-65, as passed on to the user's function by `restoration_func_set`, restoration.c:67-90. (Where the split
fails, which it does not for points of the right size, the value is irrelevant.) -/
def PointEnv.vars (q : PointEnv K) (z : Vec K) : Vec K := ((splitPrimal q.numVars q.numCons z).map Prod.fst).getD z

/-- What happens during any number of solves. `start primal rejects`: a solve starts from the point `primal` held by the solver; `enter c`: the constraint values are `c`. `finish`: the
end of a solve. -/
inductive PointOp (K : Type*)
  | start (primal : Vec K) (rejects : Bool)
  | check (c : CheckData)
  | optimize (e : StepData K)
  | enter (c : Vec K)
  | checkRest (c : CheckData)
  | restore (e : StepData K)
  | leave
  | finish (rejects : Bool)

namespace PointEnv

/-- `set_initial_iterate`, solver/solve.c:57-93. -/
def start (q : PointEnv K) (primal : Vec K) (rejects : Bool) (s : PhaseState (Vec K) (Vec K)) : Option (PhaseState (Vec K) (Vec K)) :=
  if s.inRest then none
  else
    (primal.clip q.bounds.varsLb q.bounds.varsUb q.zeroEps s.opt.iterate.x).bind fun x =>
    let r := ({ s.opt with iterate := { s.opt.iterate with x := x } } : EvalState (Vec K)).start rejects
    if r.2 then some { s with opt := r.1 } else none

/-- One step; where the points are computed see the definitions above. The lifted point is `sleqp_restoration_problem_transform`, restoration.c:491-569, into a vector created for it; at the end
of a solve the original iterate is restored, solver/solve.c:256-298. The vector holding trial points of the restoration problem is created with that problem. -/
def step (q : PointEnv K) (pr : EvalParams) (s : PhaseState (Vec K) (Vec K)) : PointOp K → Option (PhaseState (Vec K) (Vec K))
  | .start primal rejects => q.start primal rejects s
  | .check c => (c.env q q.numVars s.opt).bind fun c => s.step pr q.vars (.checkOpt c)
  | .optimize e => (e.env q.zeroEps q.bounds s.opt).bind fun e => s.step pr q.vars (.optimize e)
  | .enter c =>
    (restTransform q.numVars q.numCons q.bounds.consLb q.bounds.consUb s.opt.iterate.x c (Vec.create (q.numVars + q.numCons) 0)).bind fun z =>
      s.step pr q.vars (.enter z)
  | .checkRest c => (c.env q (q.numVars + q.numCons) s.rest).bind fun c => s.step pr q.vars (.checkRest c)
  | .restore e => q.restBounds.bind fun b => (e.env q.zeroEps b s.rest).bind fun e => s.step pr q.vars (.restore e)
  | .leave => s.step pr q.vars .leave
  | .finish rejects => if s.inRest then none else (s.opt.restoreOriginal pr rejects).map fun o => { s with opt := o }

/-- A history. -/
def run (q : PointEnv K) (pr : EvalParams) (ops : List (PointOp K)) (s : PhaseState (Vec K) (Vec K)) : Option (PhaseState (Vec K) (Vec K)) :=
  ops.foldlM (fun (s : PhaseState (Vec K) (Vec K)) o => q.step pr s o) s

/-- A solver before its first solve: nothing was evaluated, the iterates are created with the sizes of the problem and of the restoration problem. -/
def initial (q : PointEnv K) : PhaseState (Vec K) (Vec K) :=
  let sl (k : Nat) : EvalSlot (Vec K) := ⟨Vec.create k 0, fun _ => none⟩
  ⟨⟨none, sl q.numVars, sl q.numVars, []⟩, ⟨none, sl (q.numVars + q.numCons), sl (q.numVars + q.numCons), []⟩, none, none, false⟩

end PointEnv

end Sleqp

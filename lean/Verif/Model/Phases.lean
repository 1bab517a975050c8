import Verif.Model.EvalProtocol
import Verif.Model.Restoration

/-!
Model of the change between the optimization and the restoration phase: `/repo/src/main/solver/phase.c`, as seen by the user's function
(points `P`); the restoration problem has lifted points (`Q`), of which `proj` is the part belonging to the variables.
-/

namespace Sleqp

variable {P Q : Type*}

/-- The two problem solvers of a `SleqpSolver`. `opt.func` is the value of the user's function and `opt.log` the record of the calls it receives, in both phases. `val` and
`jac` are the caches of the restoration function (`FuncData`, restoration.c:10-32): where their contents were evaluated, `none` if the flag is not set. -/
structure PhaseState (P Q : Type*) where
  opt : EvalState P
  rest : EvalState Q
  val : Option P
  jac : Option P
  inRest : Bool

namespace PhaseState

/-- `compute_cons_val`, restoration.c:136-146, for a point with variables `x`. -/
def needVal (x : P) (s : PhaseState P Q) : PhaseState P Q :=
  match s.val with
  | some _ => s
  | none => { s with val := s.opt.func, opt := s.opt.evalFor .cons x }

/-- `compute_cons_jac`, restoration.c:168-179. -/
def needJac (x : P) (s : PhaseState P Q) : PhaseState P Q :=
  match s.jac with
  | some _ => s
  | none => { s with jac := s.opt.func, opt := s.opt.evalFor .jac x }

/-- What a call of the restoration function does to the user's function: setting a value sets that of the user's function (`restoration_func_set`,
restoration.c:67-90); the objective requires constraint values, the gradient also the Jacobian, Hessian products the Jacobian. (The residuals are also cached by the
layer for least-squares functions, lsq.c, which only saves evaluations.) The restoration problem has no constraints. -/
def restCall (proj : Q → P) (s : PhaseState P Q) : EvalCall Q → PhaseState P Q
  | .set q r rej => { s with opt := s.opt.setValue (proj q) r rej, val := none, jac := none }
  | .eval .obj q => s.needVal (proj q)
  | .eval .grad q => (s.needVal (proj q)).needJac (proj q)
  | .eval .hess q => s.needJac (proj q)
  | .eval .cons _ => s
  | .eval .jac _ => s
  | .read _ _ _ => s

/-- the effect of the calls made by the solver of the restoration problem while its state changed to `r` -/
def restDone (proj : Q → P) (s : PhaseState P Q) (r : EvalState Q) : PhaseState P Q :=
  { (r.log.drop s.rest.log.length).foldl (restCall proj) s with rest := r }

/-- What happens during a solve: derivative checks and iterations of the solver of the current phase, and changes of the phase. `enter z`: the lifted point is `z`. -/
inductive Op (P Q : Type*)
  | checkOpt (c : CheckEnv P)
  | optimize (e : StepEnv P)
  | enter (z : Q)
  | checkRest (c : CheckEnv Q)
  | restore (e : StepEnv Q)
  | leave

/-- Parameters for the restoration problem: no constraints, a least-squares function, and no callbacks of the user (solver/phase.c:66-96). -/
def restParams (pr : EvalParams) : EvalParams := ⟨false, pr.performSoc, false, false, pr.preprocess⟩

/-- `fill_restoration_iterate`, solver/phase.c:146-191: the caches of the restoration function are filled from the iterate (`sleqp_restoration_func_init`,
restoration.c:412-437), without setting its value; in the record of the restoration function this is a value set initially. Objective and gradient are evaluated into
the iterate of the restoration problem. Constraint values and Jacobian of that problem are empty. -/
def enter (z : Q) (s : PhaseState P Q) : PhaseState P Q :=
  { s with
    val := s.opt.iterate.src .cons
    jac := s.opt.iterate.src .jac
    rest :=
      { s.rest with
        func := some z
        iterate := ⟨z, fun _ => some z⟩
        log := s.rest.log ++ [.set z .init false, .eval .obj z, .eval .grad z] }
    inRest := true }

/-- `fill_optimization_iterate`, solver/phase.c:98-144: the iterate becomes the variables of the lifted point; constraint values and Jacobian are the ones of the
restoration function, objective and gradient those of the user's function, whose value is not set. -/
def leave (proj : Q → P) (s : PhaseState P Q) : PhaseState P Q :=
  let x := proj s.rest.iterate.x
  let s := (s.needVal x).needJac x
  let src : EvalPart → Option P := fun
    | .cons => s.val
    | .jac => s.jac
    | _ => none
  { s with opt := [EvalPart.obj, .grad].foldl EvalState.evalIterate { s.opt with iterate := ⟨x, src⟩ }, inRest := false }

/-- One step of a solve; `sleqp_solver_toggle_phase`, solver/phase.c:193-222. Steps which do not belong to the current phase do not happen. -/
def step (pr : EvalParams) (proj : Q → P) (s : PhaseState P Q) : Op P Q → Option (PhaseState P Q)
  | .checkOpt c => if s.inRest then none else (s.opt.checkAt c).map fun o => { s with opt := o }
  | .optimize e => if s.inRest then none else (s.opt.iteration pr e).map fun o => { s with opt := o.1 }
  | .enter z => if s.inRest then none else some (s.enter z)
  | .checkRest c => if s.inRest then (s.rest.checkAt c).map (s.restDone proj) else none
  | .restore e => if s.inRest then (s.rest.iteration (restParams pr) e).map fun r => s.restDone proj r.1 else none
  | .leave => if s.inRest then some (s.leave proj) else none

/-- a solve, in both phases -/
def run (pr : EvalParams) (proj : Q → P) (ops : List (Op P Q)) (s : PhaseState P Q) : Option (PhaseState P Q) :=
  ops.foldlM (fun (s : PhaseState P Q) o => s.step pr proj o) s

end PhaseState

/-! ### values -/

variable {K : Type*} [Field K] [LinearOrder K]

/-- What the solver does with the restoration function, as far as the user's function is concerned. -/
inductive RestCall (K : Type*)
  | set (z : Vec K)
  | val
  | jac

/-- `restoration_func_set`, `compute_cons_val` and `compute_cons_jac`, restoration.c:168-179, 136-146 and 168-179, the latter two on behalf of evaluations of objective,
gradient and Hessian products. -/
def RestState.call (pr : RestProblem K) (st : RestState K) : RestCall K → Option (RestState K)
  | .set z => st.set pr z
  | .val => some (st.computeVal pr)
  | .jac => some (st.computeJac pr)

/-- the calls made during a restoration phase -/
def RestState.calls (pr : RestProblem K) (cs : List (RestCall K)) (st : RestState K) : Option (RestState K) :=
  cs.foldlM (fun (st : RestState K) c => st.call pr c) st

/-- `on_restoration_solver_accepted_iterate`, solver/phase.c:6-37: whether the restoration phase ends because the accepted point is feasible. -/
def restorationEnds (pr : RestProblem K) (lb ub : Vec K) (feasEps : K) (st : RestState K) : Option Bool :=
  (maxViolation pr.numCons (st.computeVal pr).consVal lb ub).map fun res => decide (res ≤ feasEps)

/-- `fill_optimization_iterate`, solver/phase.c:98-144, on values: the point, objective, gradient, constraint values and Jacobian. `z` is the iterate of the restoration
problem, `st` the state of the restoration function, `obj` and `grad` the user's function, at the point `st.probPoint` it was last set to. The copies are modelled as
the values themselves; the space they need is the subject of C96. -/
def leaveRestoration (pr : RestProblem K) (obj : Vec K → K) (grad : Vec K → Vec K) (z : Vec K) (st : RestState K) : Option (Vec K × K × Vec K × Vec K × Mat K) :=
  (restRestore pr.numVars pr.numCons z (Vec.create pr.numVars 0)).map fun x =>
    let st := (st.computeVal pr).computeJac pr
    (x, obj st.probPoint, grad st.probPoint, st.consVal, st.consJac)

end Sleqp

import Verif.Model.Solver

/-!
Model of repeated solves and of the reset of the solver: `sleqp_solver_reset`,
`sleqp_solver_solve` and `set_initial_iterate` around the outer loop of `Model/Solver.lean`.

Besides the members of `Solver` a session keeps the vector `solver->primal` (type `X`), at
which each solve begins, and the multipliers stored in the iterate of the problem solver
(type `Y`).  Not modelled: the quasi-Newton method (reset as well, see `Model/Bfgs.lean`), the
basis kept by the LP solver, and the polishing.
-/

namespace Sleqp

variable {K : Type*} [Field K] [LinearOrder K] {σ X Y : Type*}

/-- `sleqp_problem_solver_reset`, problem_solver.c:112-123, with `compute_initial_trust_radius`,
problem_solver.c:82-110; `none` if the assert on the radii fails. -/
def PSolver.reset (choice : InitialTr) (sqrtN : K) (s : PSolver K σ) : Option (PSolver K σ) :=
  (initialTrustRadius choice sqrtN).map fun r =>
    { s with trustRadius := r.1, lpTrustRadius := r.2, penalty := 10, numFeasible := 0
             numResets := 0 }

/-- The functions of the problem, as far as the loop depends on them: objective, total
violation and feasibility residual at a vector (after clipping to the bounds), and the
slackness and stationarity residual of a vector with multipliers. -/
structure World (X Y K : Type*) where
  obj : X → K
  viol : X → K
  feas : X → K
  slack : X → Y → K
  stat : X → Y → K

/-- The numbers of a point with its multipliers. -/
def World.pt (w : World X Y K) (x : X) (y : Y) : PointData K :=
  ⟨w.obj x, w.viol x, w.feas x, w.slack x y, w.stat x y⟩

/-- A solver between two calls, solver.h:48-101. -/
structure Session (X Y K σ : Type*) where
  core : Solver K σ
  primal : X
  dual : Y

/-- What a call of `sleqp_solver_solve` reads from the rest of the world; `restored k` is the
vector computed by `create_primal` (solver/phase.c:53-65) when pass `k` leaves the restoration
phase, `dualEnd` the multipliers at the end. -/
structure SolveEnv (X Y K : Type*) where
  outer : Nat → OuterEnv K
  restored : Nat → X
  dualEnd : Y
  initReject : Bool

/-- Settings and sizes. -/
structure SolveParams (K σ : Type*) where
  pO : Params K
  pR : Params K
  rule : Rule K σ
  choice : InitialTr
  sqrtO : K
  sqrtR : K

/-- `sleqp_solver_create`, solver.c:277-356, as far as it is modelled: both problem solvers are
new, with the initial state `rule0` of the step rule; `infeasible` if the preprocessing found
the problem infeasible; a new iterate has the multipliers `y0` (zero, iterate.c:91-93). -/
def Session.create (q : SolveParams K σ) (rule0 : σ) (x0 : X) (y0 : Y) (restPt : PointData K)
    (w : World X Y K) (infeasible : Bool) : Option (Session X Y K σ) :=
  (PSolver.create q.choice q.sqrtO rule0 (w.pt x0 y0)).bind fun o =>
    (PSolver.create q.choice q.sqrtR rule0 restPt).map fun r =>
      { core := { phase := .optimization, status := if infeasible then .infeasible else .unknown
                  enableRest := false, remaining := none, iterations := 0, abortNext := false
                  opt := o, rest := r }
        primal := x0, dual := y0 }

/-- `sleqp_solver_reset`, solver.c:406-422. -/
def Session.reset (q : SolveParams K σ) (s : Session X Y K σ) : Option (Session X Y K σ) :=
  (s.core.opt.reset q.choice q.sqrtO).bind fun o =>
    (s.core.rest.reset q.choice q.sqrtR).map fun r =>
      { s with core := { s.core with opt := o, rest := r } }

/-- The vector `solver->primal` after a pass: it is overwritten when the restoration phase is
left (`create_primal`, solver/phase.c:53-65), which every pass in this phase does. -/
def passPrimal (ph : Phase) (x x' : X) : X :=
  match ph with
  | .optimization => x
  | .restoration => x'

/-- Result of a call of `sleqp_solver_solve`. -/
inductive CallOut (X Y K σ : Type*)
  | outOfFuel
  | done (s : Session X Y K σ)
  | error
  | fail

/-- The outer loop `outerLoop` along with `solver->primal`; `y` are the multipliers at the
end. -/
def sessionLoop (q : SolveParams K σ) (innerFuel : Nat) (env : SolveEnv X Y K) :
    Nat → Nat → X → Solver K σ → CallOut X Y K σ
  | 0, _, _, _ => .outOfFuel
  | fuel + 1, k, x, s =>
    match outerPass q.pO q.pR q.rule innerFuel (env.outer k) s with
    | .more s' => sessionLoop q innerFuel env fuel (k + 1) (passPrimal s.phase x (env.restored k)) s'
    | .done s' => .done ⟨s', passPrimal s.phase x (env.restored k), env.dualEnd⟩
    | .error => .error
    | .fail => .fail
    | .outOfFuel => .outOfFuel

/-- `set_initial_iterate`, solver/solve.c:57-93: the iterate is put at `solver->primal`, its
multipliers stay. -/
def Session.place (w : World X Y K) (s : Session X Y K σ) : Solver K σ :=
  { s.core with opt := { s.core.opt with cur := w.pt s.primal s.dual } }

/-- `sleqp_solver_solve`, solver/solve.c:256-298, with `run_solving_loop`,
solver/solve.c:95-254. -/
def Session.solve (q : SolveParams K σ) (w : World X Y K) (max : Option Nat) (enableRest : Bool)
    (innerFuel : Nat) (env : SolveEnv X Y K) (fuel : Nat) (s : Session X Y K σ) :
    CallOut X Y K σ :=
  if s.core.status = .infeasible then .done s
  else if env.initReject then .error
  else sessionLoop q innerFuel env fuel 0 s.primal ((s.place w).initial max enableRest)

end Sleqp

import Verif.Model.Linesearch

/-!
Model of `/repo/src/main/parametric.c`: the search for the trust radius of the linear programs (setting `PARAMETRIC_CAUCHY`).

The linear program is represented by the step it yields for a radius (`sleqp_cauchy_set_trust_radius`, `sleqp_cauchy_solve` and
`sleqp_cauchy_lp_step` one after the other); its own model is in `Model/CauchyLp`. Log messages and the assertions that are compiled
in for debugging only are left out.
-/

namespace Sleqp
variable {K : Type*} [Field K] [LinearOrder K]

/-- the state of the line search object which the parametric solver shares with the solver for trial points: iterate, penalty parameter
and trust radius passed to the last `sleqp_linesearch_set_iterate`, linesearch.c:134-150. `norm` is the Euclidean norm. -/
structure ParLine (K : Type*) where
  merits : MeritEnv K
  params : LsParams K
  radius : K
  norm : Vec K → K

/-- `struct SleqpParametricSolver` and the arguments of `sleqp_parametric_solver_solve` which do not change, parametric.c:11-42 -/
structure ParEnv (K : Type*) where
  /-- problem, iterate, penalty parameter and cut-off for zeros -/
  merits : MeritEnv K
  grad : Vec K
  jac : Mat K
  /-- Hessian product for the given multipliers: direction, storage of the result -/
  hp : Vec K → Vec K → Option (Vec K)
  /-- the step of the linear program for a radius: radius, storage of the result -/
  step : K → Vec K → Option (Vec K)
  eps : K
  eta : K
  increase : K
  decrease : K
  resolves : Nat
  /-- `none` as long as no iterate has been passed to the line search (its field `iterate` is a null pointer) -/
  line : Option (ParLine K)

/-- the variables changed by `sleqp_parametric_solver_solve` -/
structure ParState (K : Type*) where
  dir : Dir K
  last : Dir K
  radius : K
  merit : K
  /-- the radius for which the linear program has been solved last: the working set is computed from this solution -/
  solved : K
  /-- the number of linear programs solved -/
  solves : Nat

namespace ParEnv

/-- `sleqp_parametric_solver_create`, parametric.c:36-91, for the setting `COARSE`: factors and number of linear programs. (For `FINE`
the factors are `√2` and `√½`, and the number is 10.) -/
def coarse (e : ParEnv K) : ParEnv K := { e with increase := 2, decrease := 1 / 2, resolves := 5 }

/-- `has_sufficient_decrease`, parametric.c:102-150: the verdict and the quadratic merit value -/
def sufficient (e : ParEnv K) (exactViol : K) (d : Dir K) : Option (Bool × K) :=
  (e.merits.cons.addScaled d.consJac 1 1 e.merits.zeroEps e.merits.work).bind fun c =>
    (totalViolation e.merits.numCons c e.merits.consLb e.merits.consUb).bind fun lv =>
      (d.primal.dot d.hess).bind fun hd =>
        some (decide ((e.merits.penalty * (exactViol - lv) - d.objGrad) * (1 - e.eta) ≥ 1 / 2 * hd),
          e.merits.objVal + d.objGrad + e.merits.penalty * lv + 1 / 2 * hd)

/-- the merit value of `search_forward`, parametric.c:152-244, and the direction: Hessian product and step are new, gradient and Jacobian
products are those the direction came with -/
def forwardMerit (e : ParEnv K) (d : Dir K) : Option (Dir K × K) :=
  (e.merits.linear d).bind fun l =>
    (e.hp d.primal d.hess).bind fun h =>
      (d.primal.dot h).bind fun b => some ({ d with hess := h }, l + 1 / 2 * b)

/-- `search_forward`, parametric.c:152-244: the loop, by the number of passes that are left -/
def forward (e : ParEnv K) : Nat → ParState K → Option (ParState K)
  | 0, s => some s
  | k + 1, s =>
    (e.step s.radius s.dir.primal).bind fun p =>
      (e.forwardMerit { s.dir with primal := p }).bind fun r =>
        if isLt r.2 s.merit e.eps then
          (r.1.copy s.last).bind fun l =>
            forward e k ⟨r.1, l, s.radius * e.increase, r.2, s.radius, s.solves + 1⟩
        else
          (s.last.copy r.1).bind fun d =>
            some ⟨d, s.last, s.radius / e.increase, s.merit, s.radius / e.increase, s.solves + 2⟩

/-- the loop of `search_backtracking`, parametric.c:246-330: whether a step has been accepted, and the new state -/
def backward (e : ParEnv K) (exactViol : K) : Nat → ParState K → Option (Bool × ParState K)
  | 0, s => some (false, s)
  | k + 1, s =>
    (e.step s.radius s.dir.primal).bind fun p =>
      (({ s.dir with primal := p } : Dir K).reset e.merits.numCons e.grad e.jac e.hp e.merits.zeroEps).bind fun d =>
        (e.sufficient exactViol d).bind fun r =>
          if r.1 then some (true, ⟨d, s.last, s.radius, r.2, s.radius, s.solves + 1⟩)
          else backward e exactViol k ⟨d, s.last, s.radius * e.decrease, r.2, s.radius, s.solves + 1⟩

/-- `search_backtracking`, parametric.c:246-330: if no step has been accepted the line search is applied to the last one; `none` if it
has no iterate -/
def backtrack (e : ParEnv K) (exactViol : K) (s : ParState K) : Option (ParState K) :=
  (e.backward exactViol e.resolves s).bind fun r =>
    if r.1 then some r.2
    else e.line.bind fun l =>
      (cauchyStep l.merits l.params l.radius (l.norm r.2.dir.primal) r.2.dir).bind fun c =>
        some { r.2 with dir := c.1, merit := c.2.2 }

/-- `sleqp_parametric_solver_solve`, parametric.c:332-421. `lpStep` is the step of the linear program solved for `radius`, `dir` the
storage of the direction, `last` that of `solver->last_direction`. -/
def solve (e : ParEnv K) (lpStep : Vec K) (dir last : Dir K) (radius : K) : Option (ParState K) :=
  (lpStep.copy dir.primal).bind fun p =>
    (({ dir with primal := p } : Dir K).reset e.merits.numCons e.grad e.jac e.hp e.merits.zeroEps).bind fun d =>
      (totalViolation e.merits.numCons e.merits.cons e.merits.consLb e.merits.consUb).bind fun ev =>
        (e.sufficient ev d).bind fun r =>
          if r.1 then
            (d.copy last).bind fun l => e.forward e.resolves ⟨d, l, radius * e.increase, r.2, radius, 0⟩
          else e.backtrack ev ⟨d, last, radius * e.decrease, r.2, radius, 0⟩

end ParEnv
end Sleqp

import Verif.Model.Cursor
import Verif.Model.WorkingSet

/-!
Model of `cauchy/box_constrained_cauchy.c` and `cauchy/unconstrained_cauchy.c`: the step
computation for problems without general or linear constraints.
-/

namespace Sleqp
variable {K : Type*} [Field K] [LinearOrder K]

/-- loop body of `compute_fixed_vars`, cauchy/box_constrained_cauchy.c:30-72; the cursors
are those into the bounds. -/
def fixedVarsBody (inf : K) (s : List (Nat × K) × List (Nat × K) × (Nat → Bool)) (j : Nat) :
    List (Nat × K) × List (Nat × K) × (Nat → Bool) :=
  let kl := cursorTo j s.1
  let ku := cursorTo j s.2.1
  let l := cursorVal j kl
  let u := cursorVal j ku
  (kl, ku, WSet.upd s.2.2 j (isFinite inf l && isFinite inf u && decide (l = u)))

/-- `compute_fixed_vars`, cauchy/box_constrained_cauchy.c:30-72. -/
def computeFixedVars (inf : K) (n : Nat) (lb ub : Vec K) (junk : Nat → Bool) : Nat → Bool :=
  ((List.range n).foldl (fixedVarsBody inf) (lb.ents, ub.ents, junk)).2.2

/-- `CauchyData`, cauchy/box_constrained_cauchy.c:8-28, as far as `solve` reads or writes it -/
structure BoxCauchy (K : Type*) where
  radius : K
  lowerDiff : Vec K
  upperDiff : Vec K
  direction : Vec K
  duals : Vec K
  varStates : Nat → ActiveState
  fixed : Nat → Bool
  objective : K

/-- `box_constrained_cauchy_set_iterate`, cauchy/box_constrained_cauchy.c:106-124, with
`compute_diffs`, cauchy/box_constrained_cauchy.c:74-104; `none`: the assert that the point
is within its bounds fails. -/
def BoxCauchy.setIterate (c : BoxCauchy K) (lb ub primal : Vec K) (zeroEps radius : K) : Option (BoxCauchy K) :=
  if Vec.isBoxed primal lb ub = some true then
    (Vec.addScaled lb primal 1 (-1) zeroEps c.lowerDiff).bind fun ld =>
    (Vec.addScaled ub primal 1 (-1) zeroEps c.upperDiff).map fun ud =>
    { c with radius := radius, lowerDiff := ld, upperDiff := ud }
  else none

/-- state of the loop of `solve` -/
structure BoxLoop (K : Type*) where
  kl : List (Nat × K)
  ku : List (Nat × K)
  kg : List (Nat × K)
  direction : Vec K
  duals : Vec K
  states : Nat → ActiveState
  objective : K

/-- loop body of `box_constrained_cauchy_solve`, cauchy/box_constrained_cauchy.c:136-238 -/
def boxCauchyBody (radius : K) (fixed : Nat → Bool) (s : BoxLoop K) (j : Nat) : Option (BoxLoop K) :=
  let kl := cursorTo j s.kl
  let ku := cursorTo j s.ku
  let kg := cursorTo j s.kg
  let l := cursorVal j kl
  let u := cursorVal j ku
  let g := cursorVal j kg
  let ng := -g
  if ng ≥ 0 then
    if radius < u then
      (s.direction.push j radius).map fun d =>
        ⟨kl, ku, kg, d, s.duals, WSet.upd s.states j .inactive, s.objective + radius * g⟩
    else
      (s.direction.push j u).bind fun d => (s.duals.push j ng).map fun y =>
        ⟨kl, ku, kg, d, y, WSet.upd s.states j (if fixed j then .both else .upper), s.objective + u * g⟩
  else
    if l < -radius then
      (s.direction.push j (-radius)).map fun d =>
        ⟨kl, ku, kg, d, s.duals, WSet.upd s.states j .inactive, s.objective + (-radius) * g⟩
    else
      (s.direction.push j l).bind fun d => (s.duals.push j ng).map fun y =>
        ⟨kl, ku, kg, d, y, WSet.upd s.states j (if fixed j then .both else .lower), s.objective + l * g⟩

/-- `box_constrained_cauchy_solve`, cauchy/box_constrained_cauchy.c:136-238; `objVal` and
`grad` are objective and gradient of the iterate (the arguments `gradient`, `penalty`,
`objective_type` are ignored by the code). -/
def BoxCauchy.solve (n : Nat) (objVal : K) (grad : Vec K) (c : BoxCauchy K) : Option (BoxCauchy K) :=
  ((List.range n).foldlM (boxCauchyBody c.radius c.fixed)
    ⟨c.lowerDiff.ents, c.upperDiff.ents, grad.ents, c.direction.clear, c.duals.clear, c.varStates, objVal⟩).map
    fun s => { c with direction := s.direction, duals := s.duals, varStates := s.states, objective := s.objective }

/-- loop body of `box_constrained_cauchy_working_set`, cauchy/box_constrained_cauchy.c:250-272 -/
def boxWorkingSetBody (states : Nat → ActiveState) (w : WSet) (j : Nat) : Option WSet :=
  if states j ≠ .inactive then w.addVar j (states j) else some w

/-- `box_constrained_cauchy_working_set`, cauchy/box_constrained_cauchy.c:250-272. -/
def BoxCauchy.workingSet (n : Nat) (c : BoxCauchy K) (w : WSet) : Option WSet :=
  (List.range n).foldlM (boxWorkingSetBody c.varStates) w.reset

/-- loop body of `unconstrained_cauchy_solve`, cauchy/unconstrained_cauchy.c:47-99 -/
def unconCauchyBody (radius : K) (s : List (Nat × K) × Vec K × K) (j : Nat) :
    Option (List (Nat × K) × Vec K × K) :=
  let kg := cursorTo j s.1
  let g := cursorVal j kg
  let ng := -g
  if ng ≥ 0 then (s.2.1.push j radius).map fun d => (kg, d, s.2.2 + radius * g)
  else (s.2.1.push j (-radius)).map fun d => (kg, d, s.2.2 + (-radius) * g)

/-- `unconstrained_cauchy_solve`, cauchy/unconstrained_cauchy.c:47-99: direction and
objective. -/
def unconCauchySolve (n : Nat) (radius objVal : K) (grad direction : Vec K) : Option (Vec K × K) :=
  ((List.range n).foldlM (unconCauchyBody radius) (grad.ents, direction.clear, objVal)).map fun s => s.2

end Sleqp

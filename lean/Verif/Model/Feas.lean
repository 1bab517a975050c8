import Verif.Model.Ext
import Verif.Model.Mat

/-!
Model of `/repo/src/main/feas.c` and of the residuals in `/repo/src/main/iterate.c`.

`SleqpProblem` enters only through its bound vectors, `SleqpIterate` through its
vectors.  A working set enters through the predicate "constraint `i` is not
`SLEQP_INACTIVE`".
-/

namespace Sleqp

section PushLoop
variable {K τ : Type*}

/-- A loop over visited indices that pushes a value (`some v`) or skips
(`none`). -/
def pushLoop (f : Nat × τ → Option K) (r : Vec K) (l : List (Nat × τ)) : Option (Vec K) :=
  l.foldlM (fun r t => match f t with
    | none => some r
    | some v => r.push t.1 v) r
end PushLoop

variable {K : Type*} [Field K] [LinearOrder K]

/-- The three values at a visited index (absent entries are `0.`). -/
def val3 (t : Nat × Option K × Option K × Option K) : K × K × K :=
  (orZero t.2.1, orZero t.2.2.1, orZero t.2.2.2)

/-- `SLEQP_MAX(c_val - ub_val, 0.)`. -/
def upperViol (c ub : K) : K := max (c - ub) 0

/-- `SLEQP_MAX(lb_val - c_val, 0.)`. -/
def lowerViol (c lb : K) : K := max (lb - c) 0

/-- loop body of `sleqp_violated_cons_multipliers`, feas.c:6-77; `active i` is
`working_set && cons_state(i) != SLEQP_INACTIVE`. -/
def multBody (active : Nat → Bool) (i : Nat) (c lb ub : K) : Option K :=
  if active i then none
  else if upperViol c ub > 0 then some 1
  else if lowerViol c lb > 0 then some (-1)
  else none

/-- `sleqp_violated_cons_multipliers`, feas.c:6-77. -/
def violatedMultipliers (active : Nat → Bool) (numCons : Nat) (c lb ub mult : Vec K) :
    Option (Vec K) :=
  let r := (mult.clear).reserve numCons
  if lb.dim = c.dim ∧ ub.dim = c.dim ∧ r.dim = c.dim then
    pushLoop (fun t => multBody active t.1 (val3 t).1 (val3 t).2.1 (val3 t).2.2) r
      (merge3 c.ents lb.ents ub.ents)
  else none

/-- `sleqp_violated_constraints`, feas.c:79-145: the filled part of the output
array (the caller supplies an array of length `num_cons`). -/
def violatedConstraints (c lb ub : Vec K) : List Nat :=
  ((merge3 c.ents lb.ents ub.ents).filter fun t =>
    decide (upperViol (val3 t).1 (val3 t).2.2 > 0) ||
      decide (lowerViol (val3 t).1 (val3 t).2.1 > 0)).map Prod.fst

/-- loop body of `sleqp_violation_values`, feas.c:147-216. -/
def violBody (c lb ub : K) : Option K :=
  if upperViol c ub > 0 then some (c - ub)
  else if lowerViol c lb > 0 then some (c - lb)
  else none

/-- `sleqp_violation_values`, feas.c:147-216. -/
def violationValues (numCons : Nat) (c lb ub viol : Vec K) : Option (Vec K) :=
  if c.dim = numCons ∧ c.dim = lb.dim ∧ c.dim = ub.dim then
    let r := ((viol.clear).resize c.dim).reserve (min (lb.nnz + ub.nnz + c.nnz) numCons)
    pushLoop (fun t => violBody (val3 t).1 (val3 t).2.1 (val3 t).2.2) r
      (merge3 c.ents lb.ents ub.ents)
  else none

/-- residual computed in `feasibility_residuals`, feas.c:218-304. -/
def feasResidual (sgn : Bool) (c lb ub : K) : K :=
  if sgn then (if upperViol c ub ≠ 0 then upperViol c ub else -lowerViol c lb)
  else max (lowerViol c lb) (upperViol c ub)

/-- loop body of `feasibility_residuals`, without the assert. -/
def feasBody (active : Nat → Bool) (sgn : Bool) (i : Nat) (c lb ub : K) : Option K :=
  if active i then none
  else if feasResidual sgn c lb ub ≠ 0 then some (feasResidual sgn c lb ub)
  else none

/-- `feasibility_residuals`, feas.c:218-304.  The assert at line 282
(`upper == 0 || lower == 0`) at every visited index not skipped is the second
guard. -/
def feasibilityResiduals (active : Nat → Bool) (sgn : Bool) (numCons : Nat)
    (c lb ub res : Vec K) : Option (Vec K) :=
  if c.dim = numCons ∧ c.dim = lb.dim ∧ c.dim = ub.dim then
    if (merge3 c.ents lb.ents ub.ents).all fun t =>
        active t.1 || decide (upperViol (val3 t).1 (val3 t).2.2 = 0) ||
          decide (lowerViol (val3 t).1 (val3 t).2.1 = 0) then
      let r := ((res.clear).resize c.dim).reserve (min (lb.nnz + ub.nnz + c.nnz) numCons)
      pushLoop (fun t => feasBody active sgn t.1 (val3 t).1 (val3 t).2.1 (val3 t).2.2) r
        (merge3 c.ents lb.ents ub.ents)
    else none
  else none

/-- `if (upper > 0) … upper … else if (lower > 0) … lower …`; `none` if neither. -/
def violAmount (c lb ub : K) : Option K :=
  if upperViol c ub > 0 then some (upperViol c ub)
  else if lowerViol c lb > 0 then some (lowerViol c lb)
  else none

/-- update of the running maximum, feas.c:379-386. -/
def maxStep (s : K) : Option K → K
  | some x => max x s
  | none => s

/-- update of the running sum, feas.c:443-450. -/
def addStep (s : K) : Option K → K
  | some x => s + x
  | none => s

/-- `sleqp_max_violation`, feas.c:328-390. -/
def maxViolation (numCons : Nat) (c lb ub : Vec K) : Option K :=
  if c.dim = numCons ∧ c.dim = lb.dim ∧ c.dim = ub.dim then
    some ((merge3 c.ents lb.ents ub.ents).foldl
      (fun s t => maxStep s (violAmount (val3 t).1 (val3 t).2.1 (val3 t).2.2)) 0)
  else none

/-- `sleqp_total_violation`, feas.c:392-454. -/
def totalViolation (numCons : Nat) (c lb ub : Vec K) : Option K :=
  if c.dim = numCons ∧ c.dim = lb.dim ∧ c.dim = ub.dim then
    some ((merge3 c.ents lb.ents ub.ents).foldl
      (fun s t => addStep s (violAmount (val3 t).1 (val3 t).2.1 (val3 t).2.2)) 0)
  else none

section Merge4
variable {α : Type*}

/-- The four-cursor loop of `slack_residuum`, iterate.c:153-238:
`while ((k_v < v->nnz || k_lb < lb->nnz || k_ub < ub->nnz) && k_d < d->nnz)`. -/
def merge4d (v lb ub d : List (Nat × α)) :
    List (Nat × Option α × Option α × Option α × Option α) :=
  match _h : minIdx (minIdx (headIdx v) (headIdx lb)) (headIdx ub), _hd : headIdx d with
  | none, _ => []
  | some _, none => []
  | some a, some b =>
    let i := min a b
    (i, (takeAt i v).1, (takeAt i lb).1, (takeAt i ub).1, (takeAt i d).1) ::
      merge4d (takeAt i v).2 (takeAt i lb).2 (takeAt i ub).2 (takeAt i d).2
termination_by v.length + lb.length + ub.length + d.length
decreasing_by
  have h1 := takeAt_length_le (min a b) v
  have h2 := takeAt_length_le (min a b) lb
  have h3 := takeAt_length_le (min a b) ub
  have h4 := takeAt_length_le (min a b) d
  rcases le_total a b with hab | hab
  · rw [min_eq_left hab] at *
    rcases minIdx_eq_some _h with h | h
    · rcases minIdx_eq_some h with h | h
      · have := takeAt_length_lt a v h; omega
      · have := takeAt_length_lt a lb h; omega
    · have := takeAt_length_lt a ub h; omega
  · rw [min_eq_right hab] at *
    have := takeAt_length_lt b d _hd; omega

end Merge4

/-- current residual in `slack_residuum`, iterate.c:153-238. -/
def slackCur (v lb ub d : K) : K :=
  if d ≥ 0 then max (ub - v) 0 * d else max (v - lb) 0 * d

/-- current residual at a visited index. -/
def slackVal (t : Nat × Option K × Option K × Option K × Option K) : K :=
  slackCur (orZero t.2.1) (orZero t.2.2.1) (orZero t.2.2.2.1) (orZero t.2.2.2.2)

/-- `slack_residuum`, iterate.c:153-238. -/
def slackResiduum (v lb ub d : Vec K) : Option K :=
  if lb.dim = v.dim ∧ ub.dim = v.dim ∧ d.dim = v.dim then
    some ((merge4d v.ents lb.ents ub.ents d.ents).foldl (fun s t => max s |slackVal t|) 0)
  else none

/-- `slack_residuals`, iterate.c:268-356. -/
def slackResiduals (v lb ub d r : Vec K) (eps : K) : Option (Vec K) :=
  pushLoop (fun t => if isZero (slackVal t) eps then none else some (slackVal t))
    (((r.clear).resize v.dim).reserve v.dim) (merge4d v.ents lb.ents ub.ents d.ents)

/-- The bound data of a `SleqpProblem` (problem.c). -/
structure Bounds (K : Type*) where
  varsLb : Vec K
  varsUb : Vec K
  consLb : Vec K
  consUb : Vec K

/-- `SleqpIterate`, iterate.c:17-56 (the working set is separate). -/
structure Iterate (K : Type*) where
  primal : Vec K
  objVal : K
  objGrad : Vec K
  consVal : Vec K
  consJac : Mat K
  consDual : Vec K
  varsDual : Vec K

/-- `sleqp_iterate_slackness_residuum`, iterate.c:240-266. -/
def Iterate.slacknessResiduum (p : Bounds K) (it : Iterate K) : Option K :=
  (slackResiduum it.consVal p.consLb p.consUb it.consDual).bind fun r1 =>
    (slackResiduum it.primal p.varsLb p.varsUb it.varsDual).map fun r2 =>
      max (max 0 r1) r2

/-- `sleqp_iterate_feasibility_residuum`, iterate.c:390-399. -/
def Iterate.feasibilityResiduum (numCons : Nat) (p : Bounds K) (it : Iterate K) : Option K :=
  maxViolation numCons it.consVal p.consLb p.consUb

/-- `for k: cache[v->indices[k]] += v->data[k]`, iterate.c:469-477. -/
def addInto (cache : List K) (l : List (Nat × K)) : List K :=
  l.foldl (fun a e => a.modify e.1 (· + e.2)) cache

/-- `write_stationarity_resiudals_to_cache`, iterate.c:416-480; the asserts on
the Jacobian's dimensions are the guard. -/
def Iterate.stationarityCache (numVars numCons : Nat) (it : Iterate K) : Option (List K) :=
  if numVars = it.consJac.numCols ∧ numCons = it.consJac.numRows then
    let cache := (List.range numVars).map fun j =>
      Vec.dotList it.consDual.ents (it.consJac.col j) 0
    some (addInto (addInto cache it.varsDual.ents) it.objGrad.ents)
  else none

/-- `sleqp_iterate_stationarity_residuum`, iterate.c:498-517. -/
def Iterate.stationarityResiduum (numVars numCons : Nat) (it : Iterate K) : Option K :=
  (it.stationarityCache numVars numCons).map fun cache =>
    cache.foldl (fun s x => max s |x|) 0

/-- `sleqp_iterate_stationarity_residuals`, iterate.c:482-496. -/
def Iterate.stationarityResiduals (numVars numCons : Nat) (it : Iterate K) (r : Vec K) (eps : K) :
    Option (Vec K) :=
  (it.stationarityCache numVars numCons).bind fun cache => r.setFromRaw eps cache

/-- `SLEQP_ABS` on doubles. -/
def Ext.abs : Ext K → Ext K
  | .fin x => .fin |x|
  | .pinf => .pinf
  | .ninf => .pinf
  | .nan => .nan

/-- The maximum loop of `sleqp_iterate_stationarity_residuum`,
iterate.c:498-517, on arbitrary doubles: `SLEQP_MAX(res, |x|)`. -/
def extMaxAbs (l : List (Ext K)) : Ext K :=
  l.foldl (fun s x => Ext.cmax s x.abs) (.fin 0)

/-- `sleqp_iterate_is_feasible`, iterate.c:519-525. -/
def isFeasible (feasRes feasEps : Ext K) : Bool := Ext.le feasRes feasEps

/-- `sleqp_iterate_is_optimal`, iterate.c:527-564, on arbitrary doubles. -/
def isOptimal (feasEps slackEps statEps feasRes slackRes statRes : Ext K) : Bool :=
  if !isFeasible feasRes feasEps then false
  else if Ext.ge statRes statEps then false
  else if Ext.ge slackRes slackEps then false
  else true

end Sleqp

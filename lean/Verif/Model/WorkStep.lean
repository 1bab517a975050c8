import Verif.Model.Soc
import Verif.Model.Direction

/-!
Model of `working_step.c`: the step towards the working set that precedes the Newton step.
The minimum-norm service of the augmented Jacobian and the square root are parameters.
-/

namespace Sleqp
variable {K : Type*} [Field K] [LinearOrder K]

/-- the branches in the loops of `compute_initial_rhs`, working_step.c:113-278;
`sleqp_assert_is_eq` (enabled in debug builds) is a guard -/
def initialPush (eps : K) (state : ActiveState) (pos : Option Nat) (lo up : K) (r : Vec K) : Option (Vec K) :=
  match state with
  | .inactive => some r
  | .upper => pushAt r pos up
  | .lower => pushAt r pos lo
  | .both => if isEq lo up eps then pushAt r pos lo else none

/-- one of the two loops of `compute_initial_rhs`, working_step.c:113-278, over the indices stored
in one of the differences -/
def initialAdd (eps zeroEps : K) (state : Nat → ActiveState) (pos : Nat → Option Nat) (v lb ub d0 rhs : Vec K) :
    Option (Vec K) :=
  (v.addScaled ub (-1) 1 zeroEps d0).bind fun up =>
    (v.addScaled lb (-1) 1 zeroEps d0).bind fun lo =>
      (merge2 lo.ents up.ents).foldlM
        (fun r t => initialPush eps (state t.1) (pos t.1) (orZero t.2.1) (orZero t.2.2) r) rhs

/-- `compute_initial_rhs`, working_step.c:113-278 -/
def initialRhs (eps zeroEps : K) (w : WSet) (p : Bounds K) (x c d0 rhs : Vec K) : Option (Vec K) :=
  let r0 := (((rhs.resize w.size).clear).reserve w.size).resize w.size
  (initialAdd eps zeroEps w.varState w.varIdx x p.varsLb p.varsUb d0 r0).bind fun r1 =>
    initialAdd eps zeroEps w.consState w.consIdx c p.consLb p.consUb d0 r1

/-- the results of `compute_initial_step` -/
structure InitialStep (K : Type*) where
  step : Vec K
  radius : K
  inWorkingSet : Bool

/-- `compute_initial_step`, working_step.c:352-410, without the directional derivatives; `sqrt` is
the square root (`sleqp_vec_norm` is the root of `normSq`); `out` is the primal vector of the
direction; a division by zero or a failed assertion is `none` -/
def initialStep (sqrt : K → K) (eps radius : K) (d out : Vec K) : Option (InitialStep K) :=
  (d.copy out).bind fun s =>
    let nrm := sqrt d.normSq
    if nrm ≠ 0 then
      if 0 < nrm then
        let alpha := min (4 / 5 * radius / nrm) 1
        if isEq alpha 1 eps then some ⟨s, sqrt (radius * radius - nrm * nrm), true⟩
        else some ⟨s.scale alpha, radius * sqrt (1 - 4 / 5 * (4 / 5)), false⟩
      else none
    else some ⟨s, radius, true⟩

/-- `fill_initial_step`, working_step.c:317-350: slope of the objective and of the constraints
along the step -/
def fillInitialStep (zeroEps : K) (numCons : Nat) (grad : Vec K) (jac : Mat K) (step dcons : Vec K) : Option (K × Vec K) :=
  (step.dot grad).bind fun g =>
    (jac.multVec step).bind fun res => (dcons.setFromRaw zeroEps ((List.range numCons).map res)).map fun c => (g, c)

/-- the data of a `SleqpWorkingStep` after `sleqp_working_step_set_iterate` -/
structure WorkStep (K : Type*) where
  rhs : Vec K
  direction : Vec K
  init : InitialStep K
  slope : K
  dcons : Vec K
  consVal : Vec K
  multipliers : Vec K

/-- `sleqp_working_step_set_iterate`, working_step.c:451-471, with
`compute_initial_direction`, working_step.c:280-315, `compute_initial_cons_val`,
working_step.c:412-427, and `compute_violated_multipliers`, working_step.c:429-449; the
vectors of the previous call are `old` -/
def workStep (minNorm : Vec K → Option (Vec K)) (sqrt : K → K) (eps zeroEps radius : K) (w : WSet) (p : Bounds K)
    (it : Iterate K) (d0 : Vec K) (old : WorkStep K) : Option (WorkStep K) :=
  (initialRhs eps zeroEps w p it.primal it.consVal d0 old.rhs).bind fun rhs =>
    (minNorm rhs).bind fun d =>
      (initialStep sqrt eps radius d old.init.step).bind fun s =>
        (fillInitialStep zeroEps w.numCons it.objGrad it.consJac s.step old.dcons).bind fun f =>
          (it.consVal.addScaled f.2 1 1 zeroEps old.consVal).bind fun c =>
            (violatedMultipliers (fun i => decide (w.consState i ≠ .inactive)) w.numCons c p.consLb p.consUb old.multipliers).map
              fun mu => ⟨rhs, d, s, f.1, f.2, c, mu⟩

/-- `sleqp_working_step_newton_obj_offset`, working_step.c:87-111; `obj` is the objective value of
the iterate -/
def newtonOffset (p : Bounds K) (numCons : Nat) (obj penalty : K) (consVal : Vec K) : Option K :=
  (totalViolation numCons consVal p.consLb p.consUb).map fun v => obj + penalty * v

end Sleqp

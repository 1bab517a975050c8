import Verif.Model.StepRule

/-!
Model of `/repo/src/main/penalty.c`. The linear programs are oracles: `cur` is the violation of the current LP step,
`inf` the violation of the step minimising the violation, `viol k p` the violation of the step for penalty `p` in
the `k`-th increase (arbitrary functions, so nothing is assumed about the LP solver).
-/

namespace Sleqp
variable {K : Type*} [Field K] [LinearOrder K]

/-- the loops penalty.c:57-89 and 100-132: at most `fuel` increases by the factor 10 until `stop` holds for the average violation -/
def penaltyLoop (m : K) (viol : Nat → K → K) (stop : K → Bool) : Nat → Nat → K → K
  | 0, _, p => p
  | fuel + 1, k, p => if stop (viol k (p * 10) / m) then p * 10 else penaltyLoop m viol stop fuel (k + 1) (p * 10)

/-- `sleqp_update_penalty`, penalty.c:11-151, for `m` constraints; `none` if there are none (assert). `tol` is
`violation_tolerance`. -/
def updatePenalty (tol : K) (m : Nat) (cur inf : K) (viol : Nat → K → K) (p : K) : Option K :=
  if 0 < m then
    let cur := cur / (m : K)
    if cur ≤ tol then some p
    else
      let inf := inf / (m : K)
      if inf ≤ tol then some (penaltyLoop (m : K) viol (fun v => decide (v ≤ tol)) 100 0 p)
      else if cur - inf ≤ tol then some p
      else some (penaltyLoop (m : K) viol (fun v => decide (1 / 10 * (cur - inf) ≤ cur - v)) 100 0 p)
  else none

end Sleqp

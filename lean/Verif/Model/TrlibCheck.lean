import Verif.Model.Cmp
import Verif.Model.Steihaug

/-!
Model of the check of optimality made by `/repo/src/main/tr/trlib_solver.c` when the library is built with `SLEQP_DEBUG`.
-/

namespace Sleqp
variable {K : Type*} [Field K] [LinearOrder K]

/-- the comparison of `check_optimality` for a step at the boundary, tr/trlib_solver.c:211-232; `vn` and `sn` are the norms of the
projected gradient and of the step. A failing `assert` is `none`. -/
def trlibBdryTest (eps vn sn : K) (v step : Vec K) : Option Bool :=
  if isZero vn eps then some true
  else (v.dot step).bind fun p => if 0 < sn then some (isEq (-p) (vn * sn) eps) else none

/-- `check_optimality`, tr/trlib_solver.c:184-242, which is made after `trlib` reports success (`bdry` if at the boundary); the caller
asserts that the answer is yes. `eps` is the stationarity tolerance. -/
def trlibCheck (e : TrEnv K) (eps : K) (grad step : Vec K) (bdry : Bool) : Option Bool :=
  (e.hp step e.work).bind fun h => (grad.addScaled h 1 1 e.zeroEps e.work).bind fun g => (e.proj g e.work).bind fun v =>
    if bdry then trlibBdryTest eps (e.sqrt v.normSq) (e.sqrt step.normSq) v step
    else some (isZero (e.sqrt v.normSq) eps)

end Sleqp

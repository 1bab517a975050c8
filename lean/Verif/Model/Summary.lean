import Verif.Model.Iteration
import Verif.Model.Feas

/-!
Model of the numbers in the summary printed at the end of a solve, `/repo/src/main/solver/print.c`.
-/

namespace Sleqp
variable {K σ : Type*} [Field K] [LinearOrder K]

/-- The objective values and residuals printed by `sleqp_solver_print_stats`, solver/print.c:9-218, with their descriptions, in this order; `none` if the computation of a
residual fails. `s` is the solver of the optimisation phase, `orig` the iterate in terms of the user's problem, with bounds `p`. The status, the number of
iterations and the times are left out (the latter are the subject of C60). -/
def summaryLines (scaled : Bool) (n m : Nat) (p : Bounds K) (s : PSolver K σ) (orig : Iterate K) : Option (List (String × K)) :=
  if scaled then
    (orig.feasibilityResiduum m p).bind fun _origFeas =>
    (orig.slacknessResiduum p).bind fun _origSlack =>
    (orig.stationarityResiduum n m).bind fun _origStat =>
    some [("Scaled objective value", s.cur.objVal), ("Scaled feasibility residuum", s.feasRes), ("Scaled stationarity residuum", s.statRes),
      ("Scaled complementarity residuum", s.slackRes), ("Original objective value", orig.objVal), ("Original feasibility residuum", s.feasRes),
      ("Original stationarity residuum", s.statRes), ("Original complementarity residuum", s.slackRes)]
  else
    some [("Objective value", s.cur.objVal), ("Feasibility residuum", s.feasRes), ("Stationarity residuum", s.statRes),
      ("Complementarity residuum", s.slackRes)]

end Sleqp

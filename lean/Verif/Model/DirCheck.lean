import Verif.Model.Direction
import Verif.Model.WorkingSet

/-!
Model of the checks the library makes on its own steps when it is built with `SLEQP_DEBUG`: `sleqp_direction_check`
(`/repo/src/main/direction.c`) and `sleqp_direction_in_working_set` (`/repo/src/main/util.c`).  The callers
(newton.c:484-500, 568-583, gauss_newton.c:575-594, trial_point.c:628-655, trial_point/cauchy_step.c:262-281) assert that
the answer is yes.
-/

namespace Sleqp
variable {K : Type*} [Field K] [LinearOrder K]

/-- the answer of `sleqp_direction_check` and the number of vectors it created and did not free -/
structure DirVerdict where
  valid : Bool
  leaked : Nat
  deriving DecidableEq, Repr

/-- `sleqp_direction_check`, direction.c:84-145.  `hp direction product` is `sleqp_problem_hess_prod` with the multipliers
given, `tol` the constant `1e-6`.  A failed assert or an error of a callback is `none`. -/
def Dir.check (d : Dir K) (numVars numCons : Nat) (grad : Vec K) (jac : Mat K) (hp : Vec K → Vec K → Option (Vec K))
    (zeroEps tol : K) : Option DirVerdict :=
  (d.primal.dot grad).bind fun og =>
    if isEq og d.objGrad tol = false then some ⟨false, 0⟩
    else
      (jac.multVec d.primal).bind fun res =>
        ((Vec.create numCons numCons).setFromRaw zeroEps ((List.range numCons).map res)).bind fun cd =>
          (cd.eq d.consJac tol).bind fun sameCons =>
            if sameCons = false then some ⟨false, 1⟩
            else
              (hp d.primal (Vec.create numVars numVars)).bind fun hd =>
                (hd.eq d.hess tol).bind fun sameHess =>
                  if sameHess = false then some ⟨false, 2⟩ else some ⟨true, 0⟩

/-- the test of one constraint in `sleqp_direction_in_working_set`, util.c:50-124: `prod` is the linearised value -/
def wsTest (s : ActiveState) (prod lb ub eps : K) : Bool :=
  match s with
  | .inactive => true
  | .upper => isEq prod ub eps
  | .lower => isEq prod lb eps
  | .both => true

/-- `sleqp_direction_in_working_set`, util.c:50-124: the indices are visited in increasing order, the first failed test
ends the loop.  The array `cache` is the function `res`. -/
def inWorkingSet (jac : Mat K) (d lb c ub : Vec K) (w : WSet) (eps : K) : Option Bool :=
  (jac.multVec d).bind fun res =>
    some ((merge3 lb.ents c.ents ub.ents).all fun t =>
      wsTest (w.consState t.1) (orZero t.2.2.1 + res t.1) (orZero t.2.1) (orZero t.2.2.2) eps)

end Sleqp

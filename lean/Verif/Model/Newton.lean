import Verif.Model.WorkStep
import Verif.Model.Steihaug

/-!
Model of `newton.c`: the step of the equality-constrained problem. The trust-region solver is
that of `Model/Steihaug` (tr/steihaug_solver.c); log messages, timers and the residuals computed
for them are left out.
-/

namespace Sleqp
variable {K : Type*} [Field K] [LinearOrder K]

/-- `newton_solver_add_violated_multipliers`, newton.c:193-216; `out` is the vector written to -/
def addViolatedMultipliers (zeroEps penalty : K) (consDual violated out : Vec K) : Option (Vec K) :=
  consDual.addScaled violated 1 penalty zeroEps out

/-- `compute_gradient`, newton.c:348-390; `work` stands for the vectors overwritten -/
def newtonGradient (zeroEps penalty : K) (hess objGrad : Vec K) (jac : Mat K) (violated work : Vec K) : Option (Vec K) :=
  (hess.addScaled objGrad 1 1 zeroEps work).bind fun s =>
    (jac.multVecTrans violated zeroEps work).bind fun p => s.addScaled p 1 penalty zeroEps work

/-- `newton_objective`, newton.c:392-426 -/
def newtonObjective (p : Bounds K) (numCons : Nat) (obj penalty : K) (consVal : Vec K) (d : Dir K) : Option K :=
  (newtonOffset p numCons obj penalty consVal).bind fun o =>
    (d.primal.dot d.hess).map fun b => o + d.objGrad + 1 / 2 * b

/-- `newton_solver_compute_direction`, newton.c:442-594, and `sleqp_working_step_set_multipliers`,
working_step.c:503-517; `e` has the Hessian products for the multipliers given, `hess` is the
vector of products of the first step, `tr` and `out` are the vectors overwritten; a time limit
reached by the trust-region solver (code `SLEQP_ABORT_TIME`, returned to the caller) is `none` -/
def newtonDirection (e : TrEnv K) (fuel numCons : Nat) (penalty : K) (grad : Vec K) (jac : Mat K) (s : WorkStep K)
    (hess tr : Vec K) (out : Dir K) : Option (Dir K) :=
  (e.hp s.init.step hess).bind fun h =>
    let first : Dir K := ⟨s.init.step, s.slope, s.dcons, h⟩
    if isZero s.init.radius e.zeroEps then first.copy out
    else
      (newtonGradient e.zeroEps penalty h grad jac s.multipliers e.work).bind fun g =>
        (steihaug e fuel g tr s.init.radius).bind fun res =>
          if res.timeout then none
          else
            (res.step.addScaled s.init.step 1 1 e.zeroEps out.primal).bind fun p =>
              Dir.reset { out with primal := p } numCons grad jac e.hp e.zeroEps

end Sleqp

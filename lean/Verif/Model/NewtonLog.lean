import Verif.Model.Cmp
import Verif.Model.Steihaug

/-!
Model of the report about Newton steps in the log, `/repo/src/main/newton.c` lines 218-346.

The trust-region subproblem is solved by the Steihaug solver. Only the numbers printed and the warnings are modelled, not the formatting.
-/

namespace Sleqp
variable {K : Type*} [Field K] [LinearOrder K]

/-- the multiplier of the trust region as the number handed over: `SLEQP_NONE` is −1, pub_types.h:228, tr/steihaug_solver.c:246 -/
def dualValue : Option K → K
  | none => -1
  | some u => u

/-- `projection_residuum`, newton.c:218-237. -/
def projResiduum (e : TrEnv K) (step : Vec K) : Option K :=
  (e.proj step e.work).bind fun p => (p.addScaled step 1 (-1) e.zeroEps e.work).map Vec.infNorm

/-- `stationarity_residuum`, newton.c:239-273. -/
def statResiduum (e : TrEnv K) (grad step : Vec K) (dual : K) : Option K :=
  (e.hp step e.work).bind fun h =>
    (h.addScaled grad 1 1 e.zeroEps e.work).bind fun s =>
      (s.addScaled step 1 dual e.zeroEps e.work).bind fun t => (e.proj t e.work).map Vec.infNorm

/-- what is printed about a step -/
structure NewtonReport (K : Type*) where
  /-- "Trust region feasibility residuum" -/
  feas : K
  /-- "stationarity residuum" -/
  stat : K
  /-- "Newton stationarity residuum of %e exceeds desired stationarity tolerance of %e" -/
  warned : Bool
  /-- "Encountered negative Rayleigh quotient (%.14e) on PSD Hessian" -/
  negative : Bool

/-- `check_spectrum`, newton.c:318-346: is a warning printed? A failing `assert` is `none`. -/
def checkSpectrum (psd : Bool) (eps : K) (ray : Rayleigh K) : Option Bool :=
  if ray.lo ≤ ray.hi then some (psd && isNeg ray.lo eps) else none

/-- `print_residuals`, newton.c:275-316; `negative` is the result of `check_spectrum` -/
def printResiduals (e : TrEnv K) (statTol : K) (grad step : Vec K) (radius dual : K) (negative : Bool) : Option (NewtonReport K) :=
  (projResiduum e step).bind fun p =>
    (statResiduum e grad step dual).map fun s =>
      ⟨max (max (e.sqrt step.normSq - radius) 0) p, s, decide (statTol ≤ s), negative⟩

/-- the report in `newton_solver_compute_direction`, newton.c:442-594, about a result of the solver. A solve stopped by the time
limit returns an error code, which the caller hands on at once, so that nothing is printed. -/
def newtonReport (e : TrEnv K) (psd : Bool) (eps statTol : K) (grad : Vec K) (radius : K) (res : TrResult K) :
    Option (Option (NewtonReport K)) :=
  if res.timeout then some none
  else (checkSpectrum psd eps res.ray).bind fun w =>
    (printResiduals e statTol grad res.step radius (dualValue res.dual) w).map some

end Sleqp

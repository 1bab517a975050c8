import Verif.Model.Mat
import Verif.Model.StepRule

/-!
Model of `/repo/src/main/tr/steihaug_solver.c` and `/repo/src/main/tr/tr_util.c`: projected conjugate gradients for the
trust-region subproblem.

Hessian products, the projection onto the null space and the square root are parameters; so is the clock, of which only matters in
which iterations it exceeds the time limit. The numerical assertions compiled in for debugging are left out; a failing `assert` is
`none`.
-/

namespace Sleqp
variable {K : Type*} [Field K] [LinearOrder K]

/-- problem, projection and settings used by the solver -/
structure TrEnv (K : Type*) where
  /-- `sleqp_problem_hess_prod` with fixed multipliers: direction and product -/
  hp : Vec K → Vec K → Option (Vec K)
  /-- `sleqp_aug_jac_project_nullspace`: right-hand side and solution -/
  proj : Vec K → Vec K → Option (Vec K)
  /-- C `sqrt` -/
  sqrt : K → K
  zeroEps : K
  /-- stationarity tolerance times `tolerance_factor` -/
  relTol : K
  /-- −1 (`SLEQP_NONE`) for no limit -/
  maxIter : Int
  /-- is the time limit exceeded in this iteration? -/
  timeUp : Nat → Bool
  /-- stands for the vectors `d`, `Bd`, `g`, `r`, `z`, `sparse_cache` before the call, of which only the dimension matters -/
  work : Vec K

/-- smallest and largest Rayleigh quotient -/
structure Rayleigh (K : Type*) where
  lo : K
  hi : K

/-- `steihaug_collect_rayleigh`, tr/steihaug_solver.c:149-172. -/
def collectRayleigh (s : Rayleigh K) (d Bd : Vec K) : Option (Rayleigh K) :=
  if d.normSq = 0 then some s
  else (d.dot Bd).map fun p => ⟨min s.lo (p / d.normSq), max s.hi (p / d.normSq)⟩

/-- `sleqp_tr_compute_bdry_sol`, tr/tr_util.c:8-50. The squares of the norms are computed without square roots. -/
def bdrySol (sqrt : K → K) (zeroEps radius : K) (previous direction result : Vec K) : Option (Vec K) :=
  (previous.dot direction).bind fun pd =>
    if 0 < direction.normSq ∧ 0 ≤ pd * pd - direction.normSq * (previous.normSq - radius * radius) then
      previous.addScaled direction 1
        (1 / direction.normSq * (-pd + sqrt (pd * pd - direction.normSq * (previous.normSq - radius * radius)))) zeroEps result
    else none

/-- `steihaug_tr_dual`, tr/steihaug_solver.c:187-221. -/
def trDual (e : TrEnv K) (grad step : Vec K) (radius : K) : Option K :=
  (e.hp step e.work).bind fun Bd =>
    (step.dot Bd).bind fun b => (step.dot grad).bind fun g =>
      if b + g < 0 then cdiv (-(b + g)) (radius * radius) else some 0

/-- local variables of the loop in `steihaug_solver_solve` -/
structure CgState (K : Type*) where
  z : Vec K
  r : Vec K
  g : Vec K
  d : Vec K
  rg : K
  zz : K
  ray : Rayleigh K

/-- result of `steihaug_solver_solve`; `dual` is `none` for `SLEQP_NONE`, `timeout` stands for the code `SLEQP_ABORT_TIME` -/
structure TrResult (K : Type*) where
  step : Vec K
  dual : Option K
  timeout : Bool
  ray : Rayleigh K

/-- outcome of one pass of the loop -/
inductive CgNext (K : Type*) where
  | done (r : TrResult K)
  | go (s : CgState K)

/-- change of the model along the direction for step length `tau`, tr/steihaug_solver.c:376-377 -/
def tauObj (gd zBd dBd tau : K) : K := tau * ((gd + zBd) + 1 / 2 * tau * dBd)

/-- the step length in the case of negative curvature, tr/steihaug_solver.c:365-382; `root` is the square root -/
def negCurvTau (root dd zd gd zBd dBd : K) : K :=
  if tauObj gd zBd dBd (1 / dd * (-zd - root)) < tauObj gd zBd dBd (1 / dd * (-zd + root)) then 1 / dd * (-zd - root)
  else 1 / dd * (-zd + root)

/-- step in the case of negative curvature, tr/steihaug_solver.c:350-400 -/
def negCurvStep (e : TrEnv K) (grad newton : Vec K) (radius dBd : K) (s : CgState K) (Bd : Vec K) : Option (Vec K) :=
  (s.z.dot s.d).bind fun zd => (grad.dot s.d).bind fun gd => (s.z.dot Bd).bind fun zBd =>
    if 0 < s.d.normSq then
      s.z.addScaled s.d 1
        (negCurvTau (e.sqrt (zd * zd - s.d.normSq * (s.zz - radius * radius))) s.d.normSq zd gd zBd dBd) e.zeroEps newton
    else none

/-- the update of residual, projected residual and direction, tr/steihaug_solver.c:442-477; `z` is the new point -/
def cgUpdate (e : TrEnv K) (s : CgState K) (ray : Rayleigh K) (z Bd : Vec K) (alpha : K) : Option (CgState K) :=
  (s.r.addScaled Bd 1 alpha e.zeroEps e.work).bind fun r =>
    (e.proj r e.work).bind fun g =>
      (cdiv 1 s.rg).bind fun beta => (r.dot g).bind fun rg =>
        (g.addScaled s.d (-1) (beta * rg) e.zeroEps e.work).bind fun d => some ⟨z, r, g, d, rg, z.normSq, ray⟩

/-- the part of a pass with positive curvature, tr/steihaug_solver.c:403-477 -/
def cgPositive (e : TrEnv K) (grad newton : Vec K) (radius dBd : K) (s : CgState K) (ray : Rayleigh K) (Bd : Vec K) : Option (CgNext K) :=
  (cdiv s.rg dBd).bind fun alpha =>
    (s.z.addScaled s.d 1 alpha e.zeroEps e.work).bind fun z =>
      if radius * radius ≤ z.normSq then
        (bdrySol e.sqrt e.zeroEps radius s.z s.d newton).bind fun p =>
          (trDual e grad p radius).bind fun u => some (.done ⟨p, some u, false, ray⟩)
      else (cgUpdate e s ray z Bd alpha).bind fun s' => some (.go s')

/-- one pass of the loop in `steihaug_solver_solve`, tr/steihaug_solver.c:223-496; `newton` is the (cleared) step -/
def cgPass (e : TrEnv K) (grad newton : Vec K) (radius : K) (it : Nat) (s : CgState K) : Option (CgNext K) :=
  if e.maxIter ≠ -1 ∧ e.maxIter ≤ it then some (.done ⟨newton, none, false, s.ray⟩)
  else if e.timeUp it then some (.done ⟨newton, none, true, s.ray⟩)
  else if |s.rg| < e.relTol * e.relTol then (s.z.copy newton).bind fun p => some (.done ⟨p, none, false, s.ray⟩)
  else
    (e.hp s.d e.work).bind fun Bd => (collectRayleigh s.ray s.d Bd).bind fun ray => (s.d.dot Bd).bind fun dBd =>
      if dBd ≤ 0 then (negCurvStep e grad newton radius dBd s Bd).bind fun p => some (.done ⟨p, none, false, ray⟩)
      else cgPositive e grad newton radius dBd s ray Bd

/-- continue the loop -/
def cgNext (loop : CgState K → Option (TrResult K)) : CgNext K → Option (TrResult K)
  | .done r => some r
  | .go s => loop s

/-- the loop in `steihaug_solver_solve`, tr/steihaug_solver.c:223-496; it has no limit of its own, here it is given up
after `fuel` passes. -/
def cgLoop (e : TrEnv K) (grad newton : Vec K) (radius : K) : Nat → Nat → CgState K → Option (TrResult K)
  | 0, _, _ => none
  | fuel + 1, it, s => (cgPass e grad newton radius it s).bind (cgNext (cgLoop e grad newton radius fuel (it + 1)))

/-- `steihaug_solver_solve`, tr/steihaug_solver.c:223-496. -/
def steihaug (e : TrEnv K) (fuel : Nat) (grad newton : Vec K) (radius : K) : Option (TrResult K) :=
  (grad.copy e.work).bind fun r =>
    (e.proj r e.work).bind fun g => (g.copy e.work).bind fun g' =>
      if (g'.scale (-1)).normSq < e.relTol * e.relTol then
        (e.work.clear.copy newton.clear).bind fun p => some ⟨p, none, false, ⟨1, 1⟩⟩
      else (r.dot g).bind fun rg =>
        cgLoop e grad newton.clear radius fuel 0 ⟨e.work.clear, r, g, g'.scale (-1), rg, 0, ⟨1, 1⟩⟩

end Sleqp

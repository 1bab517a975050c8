import Verif.Model.Cmp
import Verif.Model.Steihaug

/-!
Model of the checks made by `/repo/src/main/tr/steihaug_solver.c` when the library is built with `SLEQP_DEBUG` and numerical
assertions: the solver of `Model/Steihaug.lean` with the checks added. A failed check is `none`.
-/

namespace Sleqp
variable {K : Type*} [Field K] [LinearOrder K]

/-- go on with `x` if the check was passed -/
def passed (check : Option Bool) (x : Option α) : Option α := check.bind fun b => if b then x else none

/-- `check_projection`, tr/steihaug_solver.c:73-91. -/
def checkProjection (e : TrEnv K) (eps : K) (step : Vec K) : Option Bool := (e.proj step e.work).bind fun p => step.eq p eps

/-- `check_trust_radius`, tr/steihaug_solver.c:93-109. -/
def checkTrustRadius (e : TrEnv K) (eps radius : K) (step : Vec K) : Option Bool := some (isLeq (e.sqrt step.normSq) radius eps)

/-- `check_residuals`, tr/steihaug_solver.c:123-145. -/
def checkResiduals (e : TrEnv K) (eps : K) (grad : Vec K) (s : CgState K) : Option Bool :=
  (e.hp s.z e.work).bind fun Bz => (Bz.addScaled grad 1 1 e.zeroEps e.work).bind fun r => r.eq s.r eps

/-- `cgPositive` with checks: `check_direction` (tr/steihaug_solver.c:111-121) of a step at the boundary, line 429, and
the projections of the new residual, the old direction, lines 460-461, and the new direction, line 480. The
latter three are made together after the update. -/
def cgPositiveDebug (e : TrEnv K) (eps : K) (grad newton : Vec K) (radius dBd : K) (s : CgState K) (ray : Rayleigh K) (Bd : Vec K) :
    Option (CgNext K) :=
  (cdiv s.rg dBd).bind fun alpha =>
    (s.z.addScaled s.d 1 alpha e.zeroEps e.work).bind fun z =>
      if radius * radius ≤ z.normSq then
        (bdrySol e.sqrt e.zeroEps radius s.z s.d newton).bind fun p =>
          passed (checkProjection e eps p) <| passed (checkTrustRadius e eps radius p) <|
            (trDual e grad p radius).bind fun u => some (.done ⟨p, some u, false, ray⟩)
      else (cgUpdate e s ray z Bd alpha).bind fun s' =>
        passed (checkProjection e eps s'.g) <| passed (checkProjection e eps s.d) <| passed (checkProjection e eps s'.d) <| some (.go s')

/-- `cgPass` with checks: the projection of the direction, tr/steihaug_solver.c:314-316, the residual, lines 330-336, and the norm of a step
of negative curvature, lines 392-393 -/
def cgPassDebug (e : TrEnv K) (eps : K) (grad newton : Vec K) (radius : K) (it : Nat) (s : CgState K) : Option (CgNext K) :=
  if e.maxIter ≠ -1 ∧ e.maxIter ≤ it then some (.done ⟨newton, none, false, s.ray⟩)
  else if e.timeUp it then some (.done ⟨newton, none, true, s.ray⟩)
  else passed (checkProjection e eps s.d) <|
    if |s.rg| < e.relTol * e.relTol then (s.z.copy newton).bind fun p => some (.done ⟨p, none, false, s.ray⟩)
    else passed (checkResiduals e eps grad s) <|
      (e.hp s.d e.work).bind fun Bd => (collectRayleigh s.ray s.d Bd).bind fun ray => (s.d.dot Bd).bind fun dBd =>
        if dBd ≤ 0 then (negCurvStep e grad newton radius dBd s Bd).bind fun p =>
          passed (some (isEq (e.sqrt p.normSq) radius eps)) <| some (.done ⟨p, none, false, ray⟩)
        else cgPositiveDebug e eps grad newton radius dBd s ray Bd

/-- continue the loop, or check the norm of the step after the loop, tr/steihaug_solver.c:485-486 -/
def cgNextDebug (e : TrEnv K) (eps radius : K) (loop : CgState K → Option (TrResult K)) : CgNext K → Option (TrResult K)
  | .done r => passed (checkTrustRadius e eps radius r.step) (some r)
  | .go s => loop s

/-- `cgLoop` with checks, tr/steihaug_solver.c:297-486 -/
def cgLoopDebug (e : TrEnv K) (eps : K) (grad newton : Vec K) (radius : K) : Nat → Nat → CgState K → Option (TrResult K)
  | 0, _, _ => none
  | fuel + 1, it, s =>
    (cgPassDebug e eps grad newton radius it s).bind (cgNextDebug e eps radius (cgLoopDebug e eps grad newton radius fuel (it + 1)))

/-- `steihaug_solver_solve` with checks, tr/steihaug_solver.c:223-496 -/
def steihaugDebug (e : TrEnv K) (eps : K) (fuel : Nat) (grad newton : Vec K) (radius : K) : Option (TrResult K) :=
  (grad.copy e.work).bind fun r =>
    (e.proj r e.work).bind fun g => (g.copy e.work).bind fun g' =>
      if (g'.scale (-1)).normSq < e.relTol * e.relTol then
        (e.work.clear.copy newton.clear).bind fun p => some ⟨p, none, false, ⟨1, 1⟩⟩
      else (r.dot g).bind fun rg =>
        cgLoopDebug e eps grad newton.clear radius fuel 0 ⟨e.work.clear, r, g, g'.scale (-1), rg, 0, ⟨1, 1⟩⟩

end Sleqp

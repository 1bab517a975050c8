import Verif.Model.CauchyLp
import Verif.Model.Penalty

/-!
Model of the Cauchy direction computed by the trial point solver with the LP-based solver of `Model/CauchyLp`: `trial_point/cauchy_step.c` (with
the function in `penalty.c`, now with the linear programs it solves instead of oracles).

The LP solver is a parameter, a function for each call. Checks made in debug builds only are omitted. Weights handed to dynamic functions
are omitted, see `Model/Dyn`. The criticality bound, which is only logged, is returned.
-/

namespace Sleqp
variable {K : Type*} [Field K] [LinearOrder K]

/-- the LP solver at each of the calls: the first linear program, its reduced form, the one of the feasibility objective, and those for increased penalty
parameters -/
structure LpCalls (K : Type*) where
  main : LpArrays K → Option (LpSol K)
  red : LpArrays K → Option (LpSol K)
  feas : LpArrays K → Option (LpSol K)
  mixed : Nat → LpArrays K → Option (LpSol K)

/-- the loops penalty.c:57-89 and penalty.c:103-133: at most `fuel` increases; `stop` tests the average violation -/
def lpPenaltyLoop (e : LpEnv K) (c : LpCalls K) (g : Vec K) (stop : K → Bool) : Nat → Nat → CauchyLp K → K → Option (CauchyLp K × K)
  | 0, _, s, p => some (s, p)
  | fuel + 1, k, s, p =>
    (s.solve e (c.mixed k) c.red (some g) (p * 10) .mixed).bind fun r =>
      if stop ((r.1.violation e).2 / (e.numCons : K)) then some ((r.1.violation e).1, p * 10)
      else lpPenaltyLoop e c g stop fuel (k + 1) (r.1.violation e).1 (p * 10)

/-- `sleqp_update_penalty`, penalty.c:11-151; `tol` is `violation_tolerance` -/
def lpUpdatePenalty (e : LpEnv K) (c : LpCalls K) (tol : K) (g : Vec K) (s : CauchyLp K) (p : K) : Option (CauchyLp K × K) :=
  if 0 < e.numCons then
    let cur := (s.violation e).2 / (e.numCons : K)
    let s1 := (s.violation e).1
    if cur ≤ tol then some (s1, p)
    else
      (s1.solve e c.feas c.red none p .feas).bind fun r =>
        let inf := (r.1.violation e).2 / (e.numCons : K)
        let s2 := (r.1.violation e).1
        if inf ≤ tol then lpPenaltyLoop e c g (fun v => decide (v ≤ tol)) 100 0 s2 p
        else if cur - inf ≤ tol then some (s2, p)
        else lpPenaltyLoop e c g (fun v => decide (1 / 10 * (cur - inf) ≤ cur - v)) 100 0 s2 p
  else none

/-- the part of `SleqpTrialPointSolver`, trial_point.h:27-92, used here; the working set is that of the iterate -/
structure CauchyDir (K : Type*) where
  cauchy : CauchyLp K
  iterate : Iterate K
  work : WSet
  step : Vec K
  radius : K
  penalty : K
  merit : K
  feasRes : K
  allowReset : Bool
  performedReset : Bool

/-- `update_penalty`, trial_point/cauchy_step.c:33-94 -/
def CauchyDir.updatePenalty (e : LpEnv K) (c : LpCalls K) (tol feasTol : K) (t : CauchyDir K) : Option (CauchyDir K) :=
  if e.numCons = 0 then some t
  else if t.feasRes ≤ feasTol then
    if t.allowReset then
      let dualNorm := max t.iterate.consDual.infNorm t.iterate.varsDual.infNorm
      if t.penalty > 1000 * (dualNorm + 1) then some { t with penalty := dualNorm + 10, performedReset := true } else some t
    else some t
  else (lpUpdatePenalty e c tol t.iterate.objGrad t.cauchy t.penalty).map fun r => { t with cauchy := r.1, penalty := r.2 }

/-- `sleqp_cauchy_lp_step` and `sleqp_cauchy_working_set`, called one after the other in `compute_cauchy_direction`, trial_point/cauchy_step.c:96-168 -/
def CauchyDir.fetch (e : LpEnv K) (t : CauchyDir K) : Option (CauchyDir K) :=
  (t.cauchy.lpStep e t.step).bind fun r =>
  (r.1.workingSet e t.iterate t.work).map fun q => { t with cauchy := q.1, step := r.2, work := q.2 }

/-- `compute_cauchy_direction`, trial_point/cauchy_step.c:96-168; also the criticality bound of `sleqp_cauchy_compute_criticality_bound`,
cauchy/cauchy.c:136-150 -/
def CauchyDir.compute (e : LpEnv K) (c : LpCalls K) (tol feasTol : K) (t : CauchyDir K) : Option (CauchyDir K × K) :=
  (t.cauchy.setIterate e t.iterate t.radius).bind fun a =>
  (a.1.solve e c.main c.red (some a.2.objGrad) t.penalty .default).bind fun b =>
  b.1.objVal.bind fun v =>
  (({ t with cauchy := b.1, iterate := a.2 } : CauchyDir K).fetch e).bind fun t1 =>
  (t1.updatePenalty e c tol feasTol).bind fun t2 =>
  if t1.penalty ≠ t2.penalty then
    (t2.fetch e).bind fun t3 =>
    (meritFunc e.numCons e.bounds t3.iterate t3.penalty).map fun m => ({ t3 with merit := m }, (t.merit - v) / min t.radius 1)
  else some (t2, (t.merit - v) / min t.radius 1)

end Sleqp

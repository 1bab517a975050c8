import Verif.Model.Direction
import Verif.Model.StepRule

/-!
Model of `/repo/src/main/measure.c`: the figures about a trial point shown in the debug log, and of the calls in
`/repo/src/main/problem_solver/iteration.c:304-347`.

A quotient with denominator zero (an IEEE infinity or NaN in C) is the outcome `none`. The square root in
`sleqp_measure_step_norm` is not modelled: norms are kept squared, and the cut-off is compared in squared form. Formatting of the
numbers is left out, a log line is the list of the numbers handed to the logger.
-/

namespace Sleqp
variable {K : Type*} [Field K] [LinearOrder K]

/-- `struct SleqpMeasure`, measure.c:17-41, with the bounds of the problem and the setting in use -/
structure Measure (K : Type*) where
  numCons : Nat
  consLb : Vec K
  consUb : Vec K
  zeroEps : K
  penalty : K
  normSq : K
  curObj : K
  linObj : K
  hessProd : K
  trialObj : K
  expCons : Vec K
  curViol : K
  expViol : K
  trialViol : K
  /-- `none`: the quotient by the norm of the direction was not a number -/
  objNonlin : Option K
  /-- the stored vector, scaled by a quotient that may not be a number -/
  consNonlin : Option (Vec K)

namespace Measure

/-- `sleqp_measure_create`, measure.c:43-69: everything zero, vectors empty. -/
def create (numCons : Nat) (lb ub : Vec K) (zeroEps : K) : Measure K :=
  ⟨numCons, lb, ub, zeroEps, 0, 0, 0, 0, 0, 0, Vec.create numCons 0, 0, 0, 0, some 0, some (Vec.create numCons 0)⟩

/-- storage of the vector `cons_nonlin` when it is written again; its previous content does not matter -/
def nonlinBuf (s : Measure K) : Vec K := s.consNonlin.getD (Vec.create s.numCons 0)

/-- `compute_obj_nonlin`, measure.c:71-90. -/
def setObj (s : Measure K) (curObj trialObj : K) (d : Dir K) : Measure K :=
  { s with
    curObj := curObj
    linObj := curObj + d.objGrad
    trialObj := trialObj
    objNonlin := (cdiv 2 s.normSq).map fun q => (curObj + d.objGrad - trialObj) * q }

/-- `compute_cons_nonlin`, measure.c:107-149. -/
def setCons (s : Measure K) (cons trialCons : Vec K) (d : Dir K) : Option (Measure K) :=
  (cons.addScaled d.consJac 1 1 s.zeroEps s.expCons).bind fun e =>
    (e.addScaled trialCons 1 (-1) s.zeroEps s.nonlinBuf).bind fun c =>
      (totalViolation s.numCons cons s.consLb s.consUb).bind fun v =>
        (totalViolation s.numCons e s.consLb s.consUb).bind fun w =>
          (totalViolation s.numCons trialCons s.consLb s.consUb).bind fun t =>
            some { s with
              expCons := e
              consNonlin := (cdiv 2 s.normSq).map fun q => c.scale q
              curViol := v
              expViol := w
              trialViol := t }

/-- `sleqp_measure_set_iterates`, measure.c:151-170; of the iterates only objective and constraint values are used. -/
def setIterates (s : Measure K) (curObj : K) (cons : Vec K) (trialObj : K) (trialCons : Vec K) (d : Dir K) : Option (Measure K) :=
  (d.primal.dot d.hess).bind fun h =>
    (({ s with normSq := d.primal.normSq, hessProd := h } : Measure K).setObj curObj trialObj d).setCons cons trialCons d

/-- `sleqp_measure_set_penalty_parameter`, measure.c:172-180: the assertion is the outcome `none`. -/
def setPenalty (s : Measure K) (penalty : K) : Option (Measure K) :=
  if 0 < penalty then some { s with penalty := penalty } else none

/-- `compute_lag_nonlin`, measure.c:92-105, `sleqp_measure_lag_nonlin`, measure.c:200-208; `none` for a failed assertion or a
value that is not a number. -/
def lagNonlin (s : Measure K) (multipliers : Vec K) : Option K :=
  s.consNonlin.bind fun c => s.objNonlin.bind fun o => (c.dot multipliers).map fun l => o + l

end Measure

/-- `percent_reduction`, measure.c:218-234. -/
def percentReduction (current trial : K) : K :=
  if current = 0 then 0
  else if current < 0 then -(100 * (current - trial) / current)
  else 100 * (current - trial) / current

/-- a line "current, expected, actual, predicted reduction, actual reduction" -/
structure ShownValues (K : Type*) where
  current : K
  expected : K
  actual : K
  predictedPercent : K
  actualPercent : K

/-- the arguments of such a line, measure.c:245-253, 265-271, 277-283 (and 394-400, 411-417, 424-430 for corrected points) -/
def shown (cur exp act : K) : ShownValues K := ⟨cur, exp, act, percentReduction cur exp, percentReduction cur act⟩

/-- the lines shown about a trial point -/
structure TrialReport (K : Type*) where
  /-- objective, largest constraint and Lagrangean nonlinearity; `none`: only the norm of the step is shown -/
  nonlin : Option (K × K × K)
  objective : Option (ShownValues K)
  violation : Option (ShownValues K)
  merit : ShownValues K
  /-- the reduction ratio; `none`: not a number -/
  ratio : Option K

namespace Measure

/-- `report_merit`, measure.c:236-256, with the lines preceding it. `ratioEps` is `eps_factor * DBL_EPSILON`. -/
def reportMerit (ratioEps cur exp act : K) (nonlin : Option (K × K × K)) (objective violation : Option (ShownValues K)) :
    TrialReport K :=
  ⟨nonlin, objective, violation, shown cur exp act, reductionRatio ratioEps (cur - act) (cur - exp)⟩

/-- `report_lsq`, measure.c:258-293. -/
def reportLsq (s : Measure K) (ratioEps : K) (nonlin : Option (K × K × K)) : TrialReport K :=
  let expObj := s.linObj + 1 / 2 * s.hessProd
  reportMerit ratioEps (s.curObj + s.penalty * s.curViol) (expObj + s.penalty * s.expViol) (s.trialObj + s.penalty * s.trialViol)
    nonlin (some (shown s.curObj expObj s.trialObj)) (some (shown s.curViol s.expViol s.trialViol))

/-- `report_func`, measure.c:321-351. -/
def reportFunc (s : Measure K) (ratioEps : K) (nonlin : Option (K × K × K)) : TrialReport K :=
  reportMerit ratioEps (s.curObj + s.penalty * s.curViol) (s.linObj + s.penalty * s.expViol + 1 / 2 * s.hessProd)
    (s.trialObj + s.penalty * s.trialViol) nonlin none none

/-- `report_nonlinearity`, measure.c:295-319; `none` if a number is missing. -/
def reportNonlin (s : Measure K) (multipliers : Vec K) : Option (K × K × K) :=
  s.objNonlin.bind fun o => s.consNonlin.bind fun c => (s.lagNonlin multipliers).map fun l => (o, c.infNorm, l)

/-- `sleqp_measure_report_trial_point`, measure.c:353-382. `cutoff` is `nonlinearity_cutoff` (measure.c:15); a square root exceeds
it exactly if the square does. -/
def reportTrial (s : Measure K) (cutoff ratioEps : K) (lsq : Bool) (multipliers : Vec K) : Option (TrialReport K) :=
  let lines := fun (nl : Option (K × K × K)) => if lsq then s.reportLsq ratioEps nl else s.reportFunc ratioEps nl
  if cutoff * cutoff < s.normSq then (s.reportNonlin multipliers).map fun nl => lines (some nl)
  else some (lines none)

/-- `sleqp_measure_report_soc_trial_point`, measure.c:384-433: objective, violation and merit. -/
def reportSoc (s : Measure K) (socObj : K) (socCons : Vec K) : Option (ShownValues K × ShownValues K × ShownValues K) :=
  (totalViolation s.numCons socCons s.consLb s.consUb).map fun v =>
    (shown s.curObj s.trialObj socObj, shown s.curViol s.trialViol v,
      shown (s.curObj + s.penalty * s.curViol) (s.trialObj + s.penalty * s.trialViol) (socObj + s.penalty * v))

/-- `report_trial_point`, problem_solver/iteration.c:304-333: the measure is filled from the two iterates, the direction of the
trial step and the penalty in use, then shown. -/
def report (s : Measure K) (curObj : K) (cons : Vec K) (trialObj : K) (trialCons : Vec K) (d : Dir K) (penalty cutoff ratioEps : K)
    (lsq : Bool) (multipliers : Vec K) : Option (Measure K × TrialReport K) :=
  (s.setIterates curObj cons trialObj trialCons d).bind fun s =>
    (s.setPenalty penalty).bind fun s => (s.reportTrial cutoff ratioEps lsq multipliers).map fun r => (s, r)

/-- `evaluate_at_trial_iterate`, problem_solver/iteration.c:15-43: objective and constraint values kept in the trial iterate. `value` are
the values at its primal point; `reject` is set by the user's function, which is then not evaluated. -/
def evalTrial (kept : K × Vec K) (reject : Bool) (value : K × Vec K) : K × Vec K := if reject then kept else value

/-- the trial point is evaluated and shown, problem_solver/iteration.c:429-433: the report is made also for rejected points. -/
def evalReport (s : Measure K) (curObj : K) (cons : Vec K) (kept : K × Vec K) (reject : Bool) (value : K × Vec K) (d : Dir K)
    (penalty cutoff ratioEps : K) (lsq : Bool) (multipliers : Vec K) : Option (Measure K × TrialReport K) :=
  s.report curObj cons (evalTrial kept reject value).1 (evalTrial kept reject value).2 d penalty cutoff ratioEps lsq multipliers

end Measure

end Sleqp

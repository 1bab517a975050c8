import Verif.Model.Feas
import Verif.Model.Ring

/-!
Model of `/repo/src/main/merit.c` and of the step acceptance rules
`/repo/src/main/step/step_rule_{direct,window,minstep}.c`,
`sleqp_reduction_ratio` (`util.c`).

A division by zero (an IEEE infinity or NaN in C) is the outcome `none`.
The numerical asserts of `fail.h` are compiled out by default and not modelled.
-/

namespace Sleqp

variable {K : Type*} [Field K] [LinearOrder K]

/-! ### merit.c -/

/-- `sleqp_merit_func`, merit.c:59-78. -/
def meritFunc (numCons : Nat) (p : Bounds K) (it : Iterate K) (penalty : K) : Option K :=
  (totalViolation numCons it.consVal p.consLb p.consUb).map fun v => it.objVal + penalty * v

/-- `SleqpDirection`, direction.h: primal direction `d` with `∇fᵀd`, `J d`, `H d`. -/
structure Direction (K : Type*) where
  primal : Vec K
  objGrad : K
  consJac : Vec K
  hess : Vec K

/-- `sleqp_merit_linear`, merit.c:80-111; `tmp` is `merit->combined_cons_val`. -/
def meritLinear (numCons : Nat) (p : Bounds K) (it : Iterate K) (d : Direction K)
    (penalty zeroEps : K) (tmp : Vec K) : Option K :=
  (Vec.addScaled d.consJac it.consVal 1 1 zeroEps tmp).bind fun c =>
    (totalViolation numCons c p.consLb p.consUb).map fun v =>
      (it.objVal + d.objGrad) + penalty * v

/-- `sleqp_merit_quadratic`, merit.c:113-137. -/
def meritQuadratic (numCons : Nat) (p : Bounds K) (it : Iterate K) (d : Direction K)
    (penalty zeroEps : K) (tmp : Vec K) : Option K :=
  (meritLinear numCons p it d penalty zeroEps tmp).bind fun l =>
    (Vec.dot d.primal d.hess).map fun b => l + (1 / 2) * b

/-! ### direct rule -/

/-- C division; `none` for a zero denominator. -/
def cdiv (a b : K) : Option K := if b = 0 then none else some (a / b)

/-- `sleqp_reduction_ratio`, util.c:244-261; `eps` is `eps_factor * DBL_EPSILON > 0`. -/
def reductionRatio (eps exact model : K) : Option K :=
  if |model - eps| ≤ eps ∧ |exact - eps| ≤ eps then some 1
  else cdiv (exact - eps) (model - eps)

/-- `step_rule_direct_apply`, step/step_rule_direct.c:11-36: (accepted, ratio). -/
def directApply (eps accepted iterateMerit trialExact trialModel : K) : Option (Bool × K) :=
  (reductionRatio eps (iterateMerit - trialExact) (iterateMerit - trialModel)).map fun r =>
    (decide (r ≥ accepted), r)

/-! ### window rule -/

/-- `current_reduction_ratio`, step/step_rule_window.c:166-171. -/
def currentRatio (exact model : K) : Option K :=
  if exact ≠ model then cdiv exact model else some 1

/-- State of the window rule: pairs (exact merit, model reduction). -/
abbrev WindowState (K : Type*) := Ring (K × K)

/-- `compute_ref_index`, step/step_rule_window.c:49-73: scan from the oldest;
start with maximum `-infinity` and index `0`. -/
def windowRefIndex (inf : K) (r : WindowState K) : Int :=
  ((List.range r.len).foldl
    (fun (s : K × Int) (k : Nat) =>
      let i := r.curr - r.len + 1 + k
      if (r.arr (r.dataIndex i)).1 > s.1 then ((r.arr (r.dataIndex i)).1, i) else s)
    (-inf, 0)).2

/-- `model_reduction_sum` over `i = ref, …, curr`, step/step_rule_window.c:105-112. -/
def windowModelSum (r : WindowState K) (ref : Int) : K :=
  (List.range (r.curr - ref + 1).toNat).foldl
    (fun (s : K) (k : Nat) => s + (r.arr (r.dataIndex (ref + k))).2) 0

/-- `compute_historic_reduction_ratio`, step/step_rule_window.c:75-117. -/
def windowHistoric (inf : K) (r : WindowState K) (iterateMerit trialExact modelRed : K) : Option K :=
  if r.len = 0 then cdiv (iterateMerit - trialExact) modelRed
  else
    let ref := windowRefIndex inf r
    let refMerit := (r.arr (r.dataIndex ref)).1
    if refMerit < trialExact then cdiv (iterateMerit - trialExact) modelRed
    else if r.curr - r.len + 1 ≤ ref ∧ ref ≤ r.curr then
      cdiv (refMerit - trialExact) (windowModelSum r ref + modelRed)
    else none

/-- `add_accepted_step`, step/step_rule_window.c:119-150. -/
def windowAdd (r : WindowState K) (iterateMerit modelRed : K) : WindowState K :=
  if r.num = 0 then r else r.pushInc (iterateMerit, modelRed)

/-- `step_rule_window_apply`, step/step_rule_window.c:152-198:
(accepted, ratio, new state). -/
def windowApply (inf accepted : K) (r : WindowState K) (iterateMerit trialExact trialModel : K) :
    Option (Bool × K × WindowState K) :=
  let exact := iterateMerit - trialExact
  let model := iterateMerit - trialModel
  (currentRatio exact model).bind fun c =>
    (windowHistoric inf r iterateMerit trialExact model).map fun h =>
      let ratio := max c h
      if ratio ≥ accepted then (true, ratio, windowAdd r iterateMerit model)
      else (false, ratio, r)

/-! ### minimum-step rule -/

/-- `StepRule`, step/step_rule_minstep.c:8-37 (`last_exact_merit` only feeds a log message). -/
structure MinState (K : Type*) where
  init : Bool
  minMerit : K
  refMerit : K
  maxMerit : K
  sumRef : K
  sumMax : K
  stepCount : Nat
  maxStepCount : Nat

/-- `step_rule_init`, step/step_rule_minstep.c:39-55. -/
def MinState.start (s : MinState K) (merit : K) : MinState K :=
  { s with stepCount := 0, minMerit := merit, refMerit := merit, maxMerit := merit
           sumRef := 0, sumMax := 0, init := true }

/-- bookkeeping after acceptance, step/step_rule_minstep.c:125-163. -/
def MinState.accept (s : MinState K) (iterateMerit modelRed : K) : MinState K :=
  let s1 := { s with sumRef := s.sumRef + modelRed, sumMax := s.sumMax + modelRed }
  let s2 :=
    if iterateMerit < s1.minMerit then
      { s1 with minMerit := iterateMerit, maxMerit := iterateMerit, sumRef := 0, sumMax := 0
                stepCount := 0 }
    else { s1 with stepCount := s1.stepCount + 1 }
  let s3 :=
    if iterateMerit > s2.maxMerit then { s2 with maxMerit := iterateMerit, sumMax := 0 } else s2
  if s3.stepCount = s3.maxStepCount then { s3 with refMerit := s3.maxMerit, sumRef := s3.sumMax }
  else s3

/-- `step_rule_minstep_apply`, step/step_rule_minstep.c:69-166; the assert
`max_exact_merit >= min_exact_merit` is the first guard. -/
def minApply (accepted : K) (s : MinState K) (iterateMerit trialExact trialModel : K) :
    Option (Bool × K × MinState K) :=
  let exact := iterateMerit - trialExact
  let model := iterateMerit - trialModel
  if s.init = true ∧ ¬ s.maxMerit ≥ s.minMerit then none
  else
    let s0 := if s.init then s else s.start iterateMerit
    (cdiv (s0.refMerit - trialExact) (s0.sumRef + model)).bind fun h =>
      (currentRatio exact model).map fun c =>
        let ratio := max c h
        if ratio ≥ accepted then (true, ratio, s0.accept iterateMerit model)
        else (false, ratio, s0)

/-- `step_rule_minstep_reset`, step/step_rule_minstep.c:168-176. -/
def MinState.reset (s : MinState K) : MinState K := { s with init := false }

end Sleqp

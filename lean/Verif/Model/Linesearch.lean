import Verif.Model.Direction
import Verif.Model.MaxStep

/-!
Model of the line searches in `/repo/src/main/linesearch.c`.

Euclidean norms are square roots; they are passed as numbers (`norm`), and the theorems assume that their square is right.
Timers and log messages are left out, and so are the numerical assertions that are compiled in for debugging only.
-/

namespace Sleqp
variable {K : Type*} [Field K] [LinearOrder K]

/-- the settings used by the line searches -/
structure LsParams (K : Type*) where
  eps : K
  cauchyEta : K
  cauchyTau : K
  lsEta : K
  lsTau : K
  lsCutoff : K

/-! ### Cauchy step -/

/-- local variables of `sleqp_linesearch_cauchy_step` -/
structure CauchyLs (K : Type*) where
  hp : K
  od : K
  cj : Vec K
  delta : K
  full : Bool
  merit : K

/-- one pass of the loop of `sleqp_linesearch_cauchy_step`, linesearch.c:152-315: the test and the new state -/
def cauchyPass (e : MeritEnv K) (p : LsParams K) (exactViol : K) (s : CauchyLs K) : Option (Bool × CauchyLs K) :=
  (e.cons.addScaled s.cj 1 1 e.zeroEps e.work).bind fun c =>
    (totalViolation e.numCons c e.consLb e.consUb).bind fun lv =>
      let lin := e.objVal + s.od + e.penalty * lv
      let s' := { s with merit := lin + 1 / 2 * s.hp }
      if (e.penalty * (exactViol - lv) - s.od) * (1 - p.cauchyEta) ≥ 1 / 2 * s.hp then some (true, s')
      else some (false, { s' with
        hp := s.hp * (p.cauchyTau * p.cauchyTau), od := s.od * p.cauchyTau, cj := s.cj.scale p.cauchyTau,
        delta := s.delta * p.cauchyTau, full := false })

/-- continue, or stop with a zero direction, linesearch.c:282-287 -/
def cauchyNext (p : LsParams K) (next : CauchyLs K → Option (Bool × CauchyLs K)) (r : Bool × CauchyLs K) : Option (Bool × CauchyLs K) :=
  if r.1 then some (false, r.2)
  else if isZero r.2.delta p.eps then some (true, { r.2 with delta := 0 })
  else next r.2

/-- the loop of `sleqp_linesearch_cauchy_step`, linesearch.c:152-315: whether the direction is zero, and the final state; `none` if the
number of passes is exceeded (failing assertion) -/
def cauchyLoop (e : MeritEnv K) (p : LsParams K) (exactViol : K) : Nat → CauchyLs K → Option (Bool × CauchyLs K)
  | 0, _ => none
  | k + 1, s => (cauchyPass e p exactViol s).bind (cauchyNext p (cauchyLoop e p exactViol k))

/-- shrink the direction to the trust region, linesearch.c:195-212. (If the norm is zero the quotient is infinite.) -/
def cauchyShrink (radius norm : K) (s : CauchyLs K) : CauchyLs K :=
  if norm ≠ 0 ∧ radius / norm < 1 then
    { s with delta := radius / norm, hp := s.hp * (radius / norm * (radius / norm)), od := s.od * (radius / norm),
             cj := s.cj.scale (radius / norm) }
  else s

/-- `LINESEARCH_MAX_IT`, linesearch.c:12 -/
def lsMaxIt : Nat := 10000

/-- `sleqp_linesearch_cauchy_step`, linesearch.c:152-315: the new direction, whether the full step was taken, and the merit value.
`norm` is the Euclidean norm of the direction. -/
def cauchyStep (e : MeritEnv K) (p : LsParams K) (radius norm : K) (d : Dir K) : Option (Dir K × Bool × K) :=
  (totalViolation e.numCons e.cons e.consLb e.consUb).bind fun ev =>
    (d.primal.dot d.hess).bind fun hp =>
      (cauchyLoop e p ev lsMaxIt (cauchyShrink radius norm ⟨hp, d.objGrad, d.consJac, 1, true, 0⟩)).bind fun r =>
        some (if r.1 then { d with consJac := r.2.cj }.setZero
              else ⟨d.primal.scale r.2.delta, r.2.od, r.2.cj, d.hess.scale r.2.delta⟩, r.2.full, r.2.merit)

/-! ### Approximate line search between Cauchy and Newton step -/

/-- the parts of problem and iterate used in addition: the point and the variable bounds -/
structure VarEnv (K : Type*) where
  primal : Vec K
  varLb : Vec K
  varUb : Vec K

/-- scalar products used by `sleqp_linesearch_trial_step` -/
structure TrialDots (K : Type*) where
  cc : K
  cn : K
  nn : K

/-- linear and quadratic merit value at step length `alpha`, linesearch.c:465-509 -/
def trialMerit (e : MeritEnv K) (cd nd : Dir K) (t : TrialDots K) (alpha : K) : Option K :=
  (e.cons.addScaled cd.consJac 1 (1 - alpha) e.zeroEps e.work).bind fun c1 =>
    (c1.addScaled nd.consJac 1 alpha e.zeroEps e.work).bind fun c2 =>
      (totalViolation e.numCons c2 e.consLb e.consUb).bind fun v =>
        some (e.objVal + (1 - alpha) * cd.objGrad + alpha * nd.objGrad + e.penalty * v +
          (1 / 2 * (1 - alpha) * (1 - alpha) * t.cc + alpha * ((1 - alpha) * t.cn + 1 / 2 * alpha * t.nn)))

/-- result of the approximate line search: direction, step length and merit value -/
structure TrialRes (K : Type*) where
  dir : Dir K
  alpha : K
  merit : K

/-- fall back to the Cauchy step -/
def trialFallback (cd : Dir K) (cauchyMerit : K) (trial : Dir K) : Option (TrialRes K) :=
  (cd.copy trial).bind fun d => some ⟨d, 0, cauchyMerit⟩

/-- the loop of `sleqp_linesearch_trial_step`, linesearch.c:317-644; `none` if the number of passes is exceeded -/
def trialLoop (e : MeritEnv K) (p : LsParams K) (cd nd : Dir K) (cauchyMerit slope : K) (t : TrialDots K) (trial : Dir K) :
    Nat → K → Option (TrialRes K)
  | 0, _ => none
  | k + 1, alpha =>
    (trialMerit e cd nd t alpha).bind fun q =>
      if q ≤ cauchyMerit + p.lsEta * (alpha * slope) then
        (cd.addScaled nd (1 - alpha) alpha e.zeroEps trial).bind fun d => some ⟨d, alpha, q⟩
      else if alpha * p.lsTau ≤ p.lsCutoff then trialFallback cd cauchyMerit trial
      else trialLoop e p cd nd cauchyMerit slope t trial k (alpha * p.lsTau)

/-- the slope used in the test of sufficient decrease, linesearch.c:411-444 -/
def trialSlope (e : MeritEnv K) (cd nd : Dir K) (t : TrialDots K) (mult : Vec K) : Option K :=
  (e.cons.addScaled cd.consJac 1 1 e.zeroEps e.work).bind fun cc =>
    (violatedMultipliers (fun _ => false) e.numCons cc e.consLb e.consUb mult).bind fun mu =>
      (mu.dot cd.consJac).bind fun jc => (mu.dot nd.consJac).bind fun jn =>
        some (nd.objGrad + jn + t.cn - (cd.objGrad + jc + t.cc))

/-- `sleqp_linesearch_trial_step`, linesearch.c:317-644. `nwork` and `mwork` stand for the work vectors
`cauchy_newton_direction`/`cauchy_point` and `violated_multipliers`, of which only the storage matters. -/
def trialStep (e : MeritEnv K) (v : VarEnv K) (p : LsParams K) (cd nd : Dir K) (cauchyMerit : K) (nwork mwork : Vec K)
    (out : Dir K) : Option (TrialRes K) :=
  (nd.primal.addScaled cd.primal 1 (-1) e.zeroEps nwork).bind fun diff =>
    (cd.primal.dot cd.hess).bind fun cc => (cd.primal.dot nd.hess).bind fun cn => (nd.primal.dot nd.hess).bind fun nn =>
      (v.primal.addScaled cd.primal 1 1 e.zeroEps nwork).bind fun point =>
        (maxStepLength point diff v.varLb v.varUb 1).bind fun alpha =>
          (trialSlope e cd nd ⟨cc, cn, nn⟩ mwork).bind fun slope =>
            if alpha ≤ p.lsCutoff then trialFallback cd cauchyMerit out
            else trialLoop e p cd nd cauchyMerit slope ⟨cc, cn, nn⟩ out lsMaxIt alpha

/-! ### Exact line search between Cauchy and Newton step -/

/-- the values visited by the loop of `collect_breakpoints`, linesearch.c:646-721: it stops as soon as *one* of the vectors is
exhausted. -/
def mergeBoth : List (Nat × K) → List (Nat × K) → List (K × K)
  | [], _ => []
  | _ :: _, [] => []
  | (i, v) :: s, (j, d) :: t =>
    if i = j then (v, d) :: mergeBoth s t
    else if i < j then (v, 0) :: mergeBoth s ((j, d) :: t)
    else (0, d) :: mergeBoth ((i, v) :: s) t
termination_by l m => l.length + m.length

/-- `BreakPoint`, linesearch.c:14-18 -/
structure BreakPoint (K : Type*) where
  point : K
  slopeChange : K
deriving DecidableEq

/-- break points found so far with violation and slope at the Cauchy step -/
structure BpState (K : Type*) where
  bps : List (BreakPoint K)
  viol : K
  slope : K
deriving DecidableEq

/-- the break point of one value, linesearch.c:686-717 -/
def bpOf (v d : K) : List (BreakPoint K) :=
  if 0 ≤ v then (if d < 0 then (if -v / d ≤ 1 then [⟨-v / d, -d⟩] else []) else [])
  else (if 0 < d then (if -v / d ≤ 1 then [⟨-v / d, d⟩] else []) else [])

/-- the body of the loop of `collect_breakpoints`, linesearch.c:646-721 -/
def collectBody (s : BpState K) (t : K × K) : BpState K :=
  ⟨s.bps ++ bpOf t.1 t.2, s.viol + max t.1 0, if 0 ≤ t.1 then s.slope + t.2 else s.slope⟩

/-- `collect_breakpoints`, linesearch.c:646-721. -/
def collectBreakpoints (s : BpState K) (violation direction : Vec K) : BpState K :=
  (mergeBoth violation.ents direction.ents).foldl collectBody s

/-- `compute_breakpoints`, linesearch.c:723-791. The array of break points has `2 m + 1` elements, which is checked in
`C45_room`. `sort` is `qsort`, whose order of equal points is not specified. -/
def computeBreakpoints (e : MeritEnv K) (sort : List (BreakPoint K) → List (BreakPoint K)) (cauchyCons jac : Vec K) :
    Option (BpState K) :=
  (cauchyCons.addScaled e.consUb 1 (-1) e.zeroEps e.work).bind fun vu =>
    (cauchyCons.addScaled e.consLb (-1) 1 e.zeroEps e.work).bind fun vl =>
      let s := collectBreakpoints (collectBreakpoints ⟨[], 0, 0⟩ vu jac) vl (jac.scale (-1))
      some { s with bps := sort (s.bps ++ [⟨1, 0⟩]) }

/-- local variables of the loop in `sleqp_linesearch_trial_step_exact` -/
structure ExactLs (K : Type*) where
  minValue : K
  minAlpha : K
  last : K
  offset : K
  linear : K
deriving DecidableEq

/-- value of the model on the current piece -/
def ExactLs.at (s : ExactLs K) (q alpha : K) : K := s.offset + s.linear * (alpha - s.last) + 1 / 2 * alpha * q * alpha

/-- keep a better point -/
def ExactLs.keep (s : ExactLs K) (alpha value : K) : ExactLs K :=
  if value < s.minValue then { s with minValue := value, minAlpha := alpha } else s

/-- one pass of the loop in `sleqp_linesearch_trial_step_exact`, linesearch.c:793-1051; the assertion `last_point <= current_point`
is the guard -/
def exactPass (penalty q : K) (s : ExactLs K) (b : BreakPoint K) : Option (ExactLs K) :=
  if s.last ≤ b.point then
    let s1 := if q ≠ 0 then
        (if s.last ≤ -1 * s.linear / q ∧ -1 * s.linear / q ≤ b.point then s.keep (-1 * s.linear / q) (s.at q (-1 * s.linear / q)) else s)
      else s
    let s2 := s1.keep b.point (s.at q b.point)
    some { s2 with offset := s.offset + (b.point - s.last) * s.linear, linear := s.linear + penalty * b.slopeChange, last := b.point }
  else none

/-- `sleqp_linesearch_trial_step_exact`, linesearch.c:793-1051. -/
def trialStepExact (e : MeritEnv K) (grad : Vec K) (sort : List (BreakPoint K) → List (BreakPoint K)) (cd nd : Dir K) (work : Vec K)
    (out : Dir K) : Option (TrialRes K) :=
  (e.cons.addScaled cd.consJac 1 1 e.zeroEps e.work).bind fun cc =>
    (nd.primal.addScaled cd.primal 1 (-1) e.zeroEps work).bind fun diff =>
      (nd.consJac.addScaled cd.consJac 1 (-1) e.zeroEps e.work).bind fun jac =>
        (grad.dot cd.primal).bind fun gc => (cd.primal.dot cd.hess).bind fun chc =>
          (grad.dot diff).bind fun gd => (diff.dot cd.hess).bind fun dhc => (diff.dot nd.hess).bind fun dhn =>
            (computeBreakpoints e sort cc jac).bind fun b =>
              (b.bps.foldlM (exactPass e.penalty (dhn - dhc))
                ⟨e.objVal + gc + 1 / 2 * chc + e.penalty * b.viol, 0, 0, e.objVal + gc + 1 / 2 * chc + e.penalty * b.viol,
                 gd + dhc + e.penalty * b.slope⟩).bind fun s =>
                (cd.addScaled nd (1 - s.minAlpha) s.minAlpha e.zeroEps out).bind fun d => some ⟨d, s.minAlpha, s.minValue⟩

end Sleqp

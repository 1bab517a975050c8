import Verif.Model.Cursor
import Verif.Model.MaxStep
import Verif.Model.WorkingSet

/-!
Model of `soc.c` and of the parts of `trial_point.c` computing trial points from steps.
The minimum-norm service of the augmented Jacobian is a parameter.
-/

namespace Sleqp
variable {K : Type*} [Field K] [LinearOrder K]

/-- a push at the position of an entry in the working set; the position `SLEQP_NONE` fails the
assertions of `sleqp_vec_push` (sparse/vec.c:48-69) -/
def pushAt (r : Vec K) (pos : Option Nat) (v : K) : Option (Vec K) := pos.bind fun k => r.push k v

/-- the values at the two cursors lead to at most one push: the branches in the loops of
`add_variable_entries`, soc.c:62-149, and `add_constraint_entries`, soc.c:151-239;
`sleqp_assert_is_eq` (enabled in debug builds) is a guard -/
def socPush (eps : K) (state : ActiveState) (pos : Option Nat) (lo up : K) (r : Vec K) : Option (Vec K) :=
  match state with
  | .inactive => some r
  | .upper => if isZero up eps then some r else pushAt r pos up
  | .lower => if isZero lo eps then some r else pushAt r pos lo
  | .both => if isEq lo up eps then pushAt r pos up else none

/-- one iteration of these loops: the cursors into the differences are advanced to `i` -/
def socBody (eps : K) (state : Nat → ActiveState) (pos : Nat → Option Nat)
    (s : List (Nat × K) × List (Nat × K) × Vec K) (i : Nat) : Option (List (Nat × K) × List (Nat × K) × Vec K) :=
  let ld := cursorTo i s.1
  let ud := cursorTo i s.2.1
  (socPush eps (state i) (pos i) (cursorVal i ld) (cursorVal i ud) s.2.2).map fun r => (ld, ud, r)

/-- `add_variable_entries`, soc.c:62-149, and `add_constraint_entries`, soc.c:151-239, for values
`v` with bounds `lb`, `ub`; `d0` provides the storage of the differences (cleared and resized
by `sleqp_vec_add_scaled`) -/
def socAdd (eps zeroEps : K) (count : Nat) (state : Nat → ActiveState) (pos : Nat → Option Nat) (v lb ub d0 rhs : Vec K) :
    Option (Vec K) :=
  (v.addScaled lb (-1) 1 zeroEps d0).bind fun lo =>
    (v.addScaled ub (-1) 1 zeroEps d0).bind fun up =>
      ((List.range count).foldlM (socBody eps state pos) (lo.ents, up.ents, rhs)).map fun s => s.2.2

/-- the right-hand side of `sleqp_soc_compute_correction`, soc.c:241-265: `w` is the working set
of the current iterate, `x`, `c` the point and the constraint values of the trial iterate -/
def socRhs (eps zeroEps : K) (w : WSet) (p : Bounds K) (x c d0 rhs : Vec K) : Option (Vec K) :=
  let r0 := ((rhs.clear).resize w.size).reserve w.size
  (socAdd eps zeroEps w.numVars w.varState w.varIdx x p.varsLb p.varsUb d0 r0).bind fun r1 =>
    socAdd eps zeroEps w.numCons w.consState w.consIdx c p.consLb p.consUb d0 r1

/-- `sleqp_soc_compute_correction`, soc.c:241-265 -/
def socCorrection (minNorm : Vec K → Option (Vec K)) (eps zeroEps : K) (w : WSet) (p : Bounds K) (x c d0 rhs : Vec K) :
    Option (Vec K) :=
  (socRhs eps zeroEps w p x c d0 rhs).bind minNorm

/-- `sleqp_soc_compute_step`, soc.c:267-306 -/
def socStep (minNorm : Vec K → Option (Vec K)) (eps zeroEps : K) (w : WSet) (p : Bounds K) (x c d0 rhs step out : Vec K) :
    Option (Vec K) :=
  (socCorrection minNorm eps zeroEps w p x c d0 rhs).bind fun d =>
    (maxStepLength x d p.varsLb p.varsUb 1).bind fun a => step.addScaled d 1 a zeroEps out

/-- `compute_trial_iterate_from_step`, trial_point.c:521-544: the point is stored in the primal
vector `out` of the trial iterate; `tmp` is `initial_trial_point` -/
def trialFromStep (zeroEps : K) (p : Bounds K) (x step tmp out : Vec K) : Option (Vec K) :=
  (x.addScaled step 1 1 zeroEps tmp).bind fun t => t.clip p.varsLb p.varsUb zeroEps out

/-- `compute_trial_point_soc_deterministic`, trial_point.c:980-1002: the new primal vector of the
trial iterate and the flag `reject` -/
def trialSocDet (minNorm : Vec K → Option (Vec K)) (eps zeroEps : K) (w : WSet) (p : Bounds K)
    (cur trial cons d0 rhs step out tmp : Vec K) : Option (Vec K × Bool) :=
  (socStep minNorm eps zeroEps w p trial cons d0 rhs step out).bind fun s =>
    (trialFromStep zeroEps p cur s tmp trial).map fun t => (t, false)

/-- `compute_required_error_bound`, trial_point.c:797-810 -/
def requiredErrorBound (acceptedReduction modelReduction : K) : K := 2 / 5 * acceptedReduction * modelReduction

/-- `compute_trial_point_soc_dynamic`, trial_point.c:1004-1073: as the code, the primal vector of
the trial iterate is not assigned; `model` is the merit model at the corrected direction,
`err` the error estimate of the function -/
def trialSocDyn (minNorm : Vec K → Option (Vec K)) (eps zeroEps : K) (w : WSet) (p : Bounds K)
    (trial cons d0 rhs step out : Vec K) (model : Vec K → K) (merit err accepted : K) : Option (Vec K × Bool) :=
  (socStep minNorm eps zeroEps w p trial cons d0 rhs step out).map fun s =>
    (trial, decide (requiredErrorBound accepted (merit - model s) < err))

end Sleqp

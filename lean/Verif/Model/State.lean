import Verif.Model.Solver
import Verif.Model.Feas

/-!
Model of the state queries: `/repo/src/main/solver/state.c`,
`/repo/src/main/problem_solver/state.c` and the Rayleigh quotients kept by the solvers of
the equality constrained problems.  The queries read the members of the problem solver
(`PSolver`); the vector valued ones are computed from the current iterate.
-/

namespace Sleqp

variable {K : Type*} [Field K] [LinearOrder K] {σ : Type*}

/-- `SLEQP_SOLVER_STATE_REAL`, pub_types.h:198-210. -/
inductive RealState
  | trustRadius | lpTrustRadius | objVal | meritVal | feasRes | statRes | slackRes | penalty
  | minRayleigh | maxRayleigh
  deriving DecidableEq, Repr

/-- The enumerators of `SLEQP_SOLVER_STATE_REAL`, pub_types.h:198-210; `none` falls into the
default case of the switch, problem_solver/state.c:52-53. -/
def RealState.ofCode : Int → Option RealState
  | 0 => some .trustRadius
  | 1 => some .lpTrustRadius
  | 2 => some .objVal
  | 3 => some .meritVal
  | 4 => some .feasRes
  | 5 => some .statRes
  | 6 => some .slackRes
  | 7 => some .penalty
  | 8 => some .minRayleigh
  | 9 => some .maxRayleigh
  | _ => none

/-- `SLEQP_SOLVER_STATE_INT`, pub_types.h:212-217. -/
inductive IntState
  | onBoundary | iteration | stepType
  deriving DecidableEq, Repr

/-- The enumerators of `SLEQP_SOLVER_STATE_INT`, pub_types.h:212-217; `none` falls into the
default case of the switch, problem_solver/state.c:75-76. -/
def IntState.ofCode : Int → Option IntState
  | 0 => some .onBoundary
  | 1 => some .iteration
  | 2 => some .stepType
  | _ => none

/-- `SLEQP_SOLVER_STATE_VEC`, pub_types.h:219-225. -/
inductive VecState
  | statResiduals | feasResiduals | consSlackResiduals | varSlackResiduals
  deriving DecidableEq, Repr

/-- The enumerators of `SLEQP_SOLVER_STATE_VEC`, pub_types.h:219-225; `none` falls into the
default case of the switch, problem_solver/state.c:116-117. -/
def VecState.ofCode : Int → Option VecState
  | 0 => some .statResiduals
  | 1 => some .feasResiduals
  | 2 => some .consSlackResiduals
  | 3 => some .varSlackResiduals
  | _ => none

/-- Where the Rayleigh quotients come from: the members `min_rayleigh` and `max_rayleigh` of
the Steihaug solver (tr/steihaug_solver.c:39), the work array of trlib (tr/trlib_solver.c:654-659;
`none` before the first solve, when the allocated array has not been written), or the
Gauss-Newton solver, which keeps none. -/
inductive RayleighSource (K : Type*)
  | steihaug (mn mx : K)
  | trlib (work : Option (K × K))
  | gaussNewton

/-- `sleqp_trial_point_solver_rayleigh`, trial_point.c:509-519 over the callbacks
`newton_solver_current_rayleigh`, newton.c:130-142, `steihaug_solver_rayleigh`,
tr/steihaug_solver.c:174-185, `trlib_rayleigh`, tr/trlib_solver.c:653-662 and
`gauss_newton_current_rayleigh`, gauss_newton.c:608-614 (which stores nothing); `none`: the
two variables of the caller keep an indeterminate value. -/
def RayleighSource.quotients : RayleighSource K → Option (K × K)
  | .steihaug mn mx => some (mn, mx)
  | .trlib w => w
  | .gaussNewton => none

/-- `sleqp_problem_solver_get_real_state`, problem_solver/state.c:7-57, for a valid state;
`none`: the stored value is indeterminate. -/
def PSolver.realState (s : PSolver K σ) (q : RayleighSource K) : RealState → Option K
  | .trustRadius => some s.trustRadius
  | .lpTrustRadius => some s.lpTrustRadius
  | .objVal => some s.cur.objVal
  | .meritVal => some s.meritValue
  | .feasRes => some s.feasRes
  | .statRes => some s.statRes
  | .slackRes => some s.slackRes
  | .penalty => some s.penalty
  | .minRayleigh => q.quotients.map Prod.fst
  | .maxRayleigh => q.quotients.map Prod.snd

/-- `SLEQP_STEPTYPE`, pub_types.h:118-125 as stored in an `int`. -/
def StepType.code : StepType → Int
  | .none => 0
  | .accepted => 1
  | .acceptedFull => 2
  | .acceptedSoc => 3
  | .rejected => 4

/-- `sleqp_problem_solver_get_int_state`, problem_solver/state.c:59-80, for a valid state. -/
def PSolver.intState (s : PSolver K σ) : IntState → Int
  | .onBoundary => if s.boundaryStep then 1 else 0
  | .iteration => s.iteration
  | .stepType => s.stepType.code

/-- `sleqp_problem_solver_get_vec_state`, problem_solver/state.c:82-121, for a valid state;
`r` is the vector handed over for the result, `none` a failed assert. -/
def vecState (numVars numCons : Nat) (p : Bounds K) (it : Iterate K) (eps : K) (r : Vec K) :
    VecState → Option (Vec K)
  | .statResiduals => it.stationarityResiduals numVars numCons r eps
  | .feasResiduals => violationValues numCons it.consVal p.consLb p.consUb r
  | .consSlackResiduals => slackResiduals it.consVal p.consLb p.consUb it.consDual r eps
  | .varSlackResiduals => slackResiduals it.primal p.varsLb p.varsUb it.varsDual r eps

/-- Answer of a query: the error code `SLEQP_ILLEGAL_ARGUMENT`, or a value. -/
inductive StateAnswer (α : Type*)
  | illegalArgument
  | value (a : α)
  deriving DecidableEq, Repr

/-- `sleqp_solver_real_state`, solver/state.c:3-12: the query always goes to the problem solver
of the optimization phase. -/
def Solver.realState (s : Solver K σ) (q : RayleighSource K) (code : Int) :
    StateAnswer (Option K) :=
  match RealState.ofCode code with
  | none => .illegalArgument
  | some st => .value (s.opt.realState q st)

/-- `sleqp_solver_int_state`, solver/state.c:14-23. -/
def Solver.intState (s : Solver K σ) (code : Int) : StateAnswer Int :=
  match IntState.ofCode code with
  | none => .illegalArgument
  | some st => .value (s.opt.intState st)

end Sleqp

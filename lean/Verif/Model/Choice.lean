import Verif.Model.Problem
import Verif.Model.Restoration
import Verif.Model.SolverCreate
import Verif.Model.Flags

/-!
Model of the choice of algorithms when a solver is created: `/repo/src/main/trial_point.c`, `/repo/src/main/newton.c`.

The creation of the chosen components is left out; it does not fail for reasons other than lack of memory.
-/

namespace Sleqp

/-- `SLEQP_AUG_JAC_METHOD`, pub_types.h:190-196. -/
inductive SystemMethod | auto | standard | reduced | direct
  deriving DecidableEq

/-- `SLEQP_TR_SOLVER`, pub_types.h:134-140. -/
inductive TrMethod | trlib | cg | lsqr | auto
  deriving DecidableEq

/-- `SLEQP_DUAL_ESTIMATION_TYPE`, pub_types.h:127-132. -/
inductive DualMethod | lp | lsq | mixed
  deriving DecidableEq

/-- the ways to compute Cauchy steps -/
inductive CauchyAlg | unconstrained | box | lp
  deriving DecidableEq

/-- the ways to solve linear systems with the working set (`SleqpAugJac`) -/
inductive SystemAlg | unconstrained | box | standard | reduced | direct
  deriving DecidableEq

/-- the ways to compute Newton steps: Gauss-Newton (with LSQR), or Newton with one of two solvers for the trust region problem -/
inductive EqpAlg | gaussNewton | cg | trlib
  deriving DecidableEq

/-- the factorization the library was built with: `psd`: its flags (`sleqp_fact_flags`) contain `SLEQP_FACT_FLAGS_PSD`; `qr`: `SLEQP_HAVE_QR_FACT`
is defined -/
structure FactKind where
  psd : Bool
  qr : Bool
  deriving DecidableEq

/-- the settings read -/
structure MethodSettings where
  system : SystemMethod
  tr : TrMethod
  dual : DualMethod
  deriving DecidableEq

/-- AUG_JAC_METHOD_DEFAULT, TR_SOLVER_DEFAULT, DUAL_ESTIMATION_TYPE_DEFAULT, settings.c:49-59. -/
def MethodSettings.default : MethodSettings := ⟨.auto, .auto, .lsq⟩

/-- what is read of a problem: `sleqp_problem_is_unconstrained`, the number of constraints, type and flags of its function -/
structure ProblemKind where
  unconstrained : Bool
  numCons : Nat
  func : FuncKind
  flags : FuncFlags
  deriving DecidableEq

/-- the algorithms of a `SleqpTrialPointSolver` -/
structure Algorithms where
  cauchy : CauchyAlg
  system : SystemAlg
  dual : DualMethod
  eqp : EqpAlg
  deriving DecidableEq

/-- `create_cauchy_solver`, trial_point.c:161-188. -/
def chooseCauchy (p : ProblemKind) : CauchyAlg :=
  if p.unconstrained then .unconstrained
  else if p.numCons = 0 then .box
  else .lp

/-- `create_aug_jac`, trial_point.c:64-159; `none`: `SLEQP_ILLEGAL_ARGUMENT`. -/
def chooseSystem (b : FactKind) (s : MethodSettings) (p : ProblemKind) : Option SystemAlg :=
  if p.unconstrained then some .unconstrained
  else if p.numCons = 0 then some .box
  else match s.system with
    | .auto => if b.psd then some .reduced else some .standard
    | .standard => if b.psd then none else some .standard
    | .reduced => some .reduced
    | .direct => if b.qr then some .direct else none

/-- the solver for trust region problems, `newton_solver_create`, newton.c:51-128 -/
def chooseTr (s : MethodSettings) (p : ProblemKind) : EqpAlg :=
  let tr : TrMethod := if s.tr = .auto then (if p.flags.has FuncFlags.PSD then .cg else .trlib) else s.tr
  if tr = .cg then .cg else .trlib

/-- `create_eqp_solver`, trial_point.c:190-223; `none`: `SLEQP_ILLEGAL_ARGUMENT`. -/
def chooseEqp (s : MethodSettings) (p : ProblemKind) : Option EqpAlg :=
  if s.tr = .lsqr then
    if p.func ≠ .lsq then none else some .gaussNewton
  else some (chooseTr s p)

/-- `sleqp_trial_point_solver_create`, trial_point.c:249-338, with `create_dual_estimation`, trial_point.c:31-62. -/
def chooseAll (b : FactKind) (s : MethodSettings) (p : ProblemKind) : Option Algorithms :=
  (chooseSystem b s p).bind fun y =>
  (chooseEqp s p).map fun q => ⟨chooseCauchy p, y, s.dual, q⟩

/-- what is read of the problem `p` with a function of type `t` and flags `f` -/
def Prob.kind {K : Type*} [Field K] [LinearOrder K] (inf : K) (p : Prob K) (t : FuncKind) (f : FuncFlags) : ProblemKind :=
  ⟨p.isUnconstrained inf, p.numGen + p.numLin, t, f⟩

/-- what is read of the restoration problem of a problem with these bounds: `sleqp_restoration_problem_create`, restoration.c:439-489, with
`restoration_func_create`, restoration.c:346-385. It has no constraints; its function is a least-squares one. -/
def restKind {K : Type*} [Field K] [LinearOrder K] (inf : K) (varLb varUb consLb consUb : Vec K) : Option ProblemKind :=
  (restBound varLb consLb).bind fun lb =>
  (restBound varUb consUb).map fun ub =>
    ⟨!(vecHasFinite inf lb || vecHasFinite inf ub), 0, .lsq, (createdFlags .lsq).add FuncFlags.INTERNAL⟩

end Sleqp

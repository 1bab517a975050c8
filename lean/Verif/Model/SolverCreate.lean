import Verif.Model.Scale
import Verif.Model.Preprocessing
import Verif.Model.Dyn
import Verif.Model.Bfgs

/-!
Model of the layers `sleqp_solver_create` (`/repo/src/main/solver.c`) puts between the
user's problem and the problem that is solved: scaling, then a quasi-Newton
approximation of the Hessian, then preprocessing.

A point is a sparse vector; the objective is a function of its dense values.  The
settings, callbacks, timers and the creation of the remaining components are left out.
-/

namespace Sleqp

variable {K : Type*} [Field K] [LinearOrder K]

/-- `SLEQP_FUNC_TYPE`, types.h. -/
inductive FuncKind
  | regular | lsq | dynamic
  deriving DecidableEq

/-- What a solver is created from: sizes and type of the user's function, the scaling (if
any), whether the Hessian evaluation is one of BFGS / SR1, and, if the preprocessor is
enabled, the variables it fixed (in the scaled problem). -/
structure SolverSetup (K : Type*) where
  numVars : Nat
  numCons : Nat
  kind : FuncKind
  scaling : Option Scaling
  quasiNewton : Bool
  fixed : Option (List (Nat × K))

namespace SolverSetup

/-- Type of the function of the scaled problem, problem_scaling.c:492-507. -/
def scaledKind (S : SolverSetup K) : FuncKind :=
  match S.scaling with
  | none => S.kind
  | some _ =>
    match S.kind with
    | .regular => .regular
    | .lsq => .lsq
    | .dynamic => .dynamic

/-- Type of the function handed to the preprocessor, solver.c:139-147: the function created by
`quasi_newton_func_create` (quasi_newton/quasi_newton.c:84-109) is a regular one,
whatever it is created from. -/
def wrappedKind (S : SolverSetup K) : FuncKind :=
  if S.quasiNewton then .regular else S.scaledKind

/-- Type of the function of the problem that is solved, solver.c:160-190 with
`create_transformed_func`, preprocessor/transform.c:161-216. -/
def solverKind (S : SolverSetup K) : FuncKind :=
  match S.fixed with
  | none => S.wrappedKind
  | some [] => S.wrappedKind
  | some (_ :: _) =>
    match S.wrappedKind with
    | .regular => .regular
    | .lsq => .lsq
    | .dynamic => .dynamic

/-- Number of variables of the problem that is solved, preprocessor/transform.c:80. -/
def solverVars (S : SolverSetup K) : Nat :=
  match S.fixed with
  | none => S.numVars
  | some fx => S.numVars - fx.length

/-- Scaling of a point if there is a scaling, solver.c:38-41. -/
def scaleStep (S : SolverSetup K) (sp : Vec K) : Option (Vec K) :=
  match S.scaling with
  | some s => s.scalePoint sp
  | none => some sp

/-- `solver_convert_primal`, solver.c:28-55, into vectors created with the sizes of solver.c:312-316.
With a preprocessor: `sleqp_transformation_convert_primal`, preprocessor/transform.c:138-159. -/
def convertPrimal (S : SolverSetup K) (source : Vec K) : Option (Vec K) :=
  (source.copy (Vec.create S.numVars 0)).bind fun sp =>
  (S.scaleStep sp).bind fun sp =>
  match S.fixed with
  | some fx => sp.removeEntries (Vec.create S.solverVars 0) (fx.map Prod.fst)
  | none => sp.copy (Vec.create S.solverVars 0)

/-- Objective of the scaled problem (the quasi-Newton wrapper hands it on unchanged,
quasi_newton/quasi_newton.c:32-40): the user's objective at the unscaled point, scaled. For
a least-squares function it is the residuals which are scaled (`Scaling.lsqUser`,
problem_scaling.c:215-246), so that the objective is scaled twice. -/
def scaledObj (S : SolverSetup K) (f : (Nat → K) → K) (z : Vec K) : Option K :=
  match S.scaling with
  | none => some (f z.value)
  | some s =>
    (s.funcPoint (Vec.create S.numVars 0) z).map fun x =>
      if S.kind = .lsq then s.scaleLsqObjVal (f x.value) else s.scaleObjVal (f x.value)

/-- Primal point in the scaled problem belonging to a point of the problem that is solved:
`restore_primal`, preprocessor/restore.c:151-173, or a copy, solver.c:62-71. -/
def restoreScaled (S : SolverSetup K) (y : Vec K) : Option (Vec K) :=
  match S.fixed with
  | some fx => y.mergeEntries (Vec.create S.numVars 0) fx
  | none => y.copy (Vec.create S.numVars 0)

/-- Objective of the problem that is solved (with fixed variables: `fixed_var_obj_val`,
preprocessor/fixed_var_func.c:104-110, at the point of `fixed_var_func_set`,
preprocessor/fixed_var_func.c:30-49). -/
def solverObj (S : SolverSetup K) (f : (Nat → K) → K) (y : Vec K) : Option K :=
  (S.restoreScaled y).bind (S.scaledObj f)

/-- Primal point and objective value of `do_restore_iterate`, solver.c:57-85. With a
preprocessor the objective is evaluated again at the restored point
(preprocessor/restore.c:749-752), otherwise it is that of the iterate, here the one
belonging to its point; both are the value of the scaled objective. Whether the objective
is unscaled once or twice depends on the type of the function of the problem that is
solved (solver.c:75-82). -/
def restore (S : SolverSetup K) (f : (Nat → K) → K) (y : Vec K) : Option (Vec K × K) :=
  (S.restoreScaled y).bind fun z =>
  (S.scaledObj f z).bind fun v =>
  match S.scaling with
  | none => some (z, v)
  | some s =>
    (s.unscalePoint z).map fun x =>
      (x, if S.solverKind = .lsq then s.unscaleLsqObjVal v else s.unscaleObjVal v)

/-- What a quasi-Newton approximation computes first when it is told of a step
(solver.c:241-258, quasi_newton/bfgs.c:580-624): it was created with the number of
variables of the scaled problem (solver.c:139-142), the iterates are those of the
problem that is solved. -/
def pushDiffs (S : SolverSetup K) (eps : K) (x0 g0 : Vec K) (j0 : Mat K) (x1 g1 : Vec K) (j1 : Mat K) (mult : Vec K) :
    Option (Vec K × Vec K) :=
  lagrangeDiffs eps S.numVars x0 g0 j0 x1 g1 j1 mult

variable {P V W : Type*}

/-- The calls a dynamic function receives from the creation of the solver to the first
evaluation: `set_obj_weight` (solver.c:98-109), the error bound (trial_point.c:327-335), the
weights of the constraints (solver/solve.c:65 with `sleqp_dyn_set_penalty_cons_weights`,
dyn.c:395-420), then the initial point. All but the last depend on the type of the
function of the problem that is solved. Weights and points are those handed to the
user's function; scaling changes them (`C33_dynamic`). -/
def dynStart (S : SolverSetup K) (wObj : Ext K) (wCons : W) (x : P) : List (DynOp K P W) :=
  (if S.solverKind = .dynamic then
    [.setObjWeight wObj .ok, .setErrorBound (.fin 1) .ok] ++
      (if S.numCons = 0 then [] else [.setConsWeights wCons .ok])
  else []) ++ [.setValue x .ok]

/-- `dyn_func_eval` in a release build, dyn.c:101-140: without the asserts. -/
def _root_.Sleqp.Dyn.evalRelease (U : Nat → DynUser K P W → DynEval K V) (s : Dyn K P V W) : Bool × Dyn K P V W :=
  if hasFlag s.flags HAS_VALUES then (true, s)
  else
    let r := U s.calls s.user
    let s1 := { s with objVal := r.objVal, consVal := r.consVal, error := r.error
                       calls := s.calls + 1 }
    if !r.ok then (false, s1)
    else if s1.error = extNone then (false, s1)
    else if Ext.lt s1.error (.fin 0) then (false, s1)
    else if Ext.gt s1.error s1.errorBound then (false, s1)
    else (true, { s1 with flags := s1.flags ||| HAS_VALUES })

end SolverSetup
end Sleqp

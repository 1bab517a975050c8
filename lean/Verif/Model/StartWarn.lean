import Verif.Model.DerivCheck
import Verif.Model.Flags
import Verif.Model.Feas

/-!
Model of the warnings printed at the start of a solve, `/repo/src/main/problem_solver/solve.c`, and of the flags and the type of the function they
look at, which is the one the solver made from that of the user (`/repo/src/main/solver.c`).
-/

namespace Sleqp

/-- how a solver is created, as far as flags and types of functions are concerned: the type of the user's function, whether there is a scaling, the
quasi-Newton method (`some true` for BFGS, `some false` for SR1), and whether the preprocessor fixes variables.
Simplification: the user sets no further flags of the function. -/
structure WarnSetup where
  type : FuncType
  scaling : Bool
  quasiNewton : Option Bool
  fixing : Bool
deriving DecidableEq

/-- the function after scaling, problem_scaling.c:415-445 -/
def WarnSetup.scaled (S : WarnSetup) : FuncFlags × FuncType :=
  (if S.scaling then scaledFlags (createdFlags S.type) S.type else createdFlags S.type, S.type)

/-- the function after `sleqp_quasi_newton_create_default`, quasi_newton/quasi_newton.c:234-257: the new function is a regular one -/
def WarnSetup.approximated (S : WarnSetup) : FuncFlags × FuncType :=
  match S.quasiNewton with
  | some b => (quasiNewtonFlags b, .regular)
  | none => S.scaled

/-- the function of the problem which is solved, `solver_create_problem`, solver.c:111-197 -/
def WarnSetup.solved (S : WarnSetup) : FuncFlags × FuncType :=
  if S.fixing then (fixedFlags S.approximated.1 S.approximated.2, S.approximated.2) else S.approximated

/-- the warnings of `print_warning` -/
inductive StartWarning
  /-- "Enabled second order derivative check while using a quasi-Newton method" -/
  | quasiNewton
  /-- "Enabled first order derivative check while using a dynamic function" -/
  | dynamic
  /-- "Problem is badly scaled, constraint violation … significantly exceeds function value …" -/
  | scale
deriving DecidableEq

variable {K : Type*} [Field K] [LinearOrder K]

/-- `print_warning`, problem_solver/solve.c:15-77: `func` are flags and type of the function of the problem, `c` and `obj` the constraint values and
the objective at the starting point, `lb` and `ub` the bounds on `m` constraints -/
def printWarning (fl : DcFlags) (func : FuncFlags × FuncType) (m : Nat) (c lb ub : Vec K) (obj : K) : Option (List StartWarning) :=
  let w1 := if (fl.secondObj || fl.secondCons || fl.secondSimple) && func.1.has FuncFlags.INEXACT then [StartWarning.quasiNewton] else []
  let w2 := if decide (func.2 = .dynamic) && (fl.firstObj || fl.firstCons) then [StartWarning.dynamic] else []
  (totalViolation m c lb ub).map fun v => w1 ++ w2 ++ if 10 * |obj| < v then [StartWarning.scale] else []

end Sleqp

import Verif.Model.LpBackend

/-!
Model of the functions of the LP back ends which hand over solutions and multipliers: `lp/lpi_highs.c`, `lp/lpi_soplex.cc`, `lp/lpi_gurobi.c`.  The
solution itself is an argument; the functions of the libraries are taken to copy it to the arrays given.
-/

namespace Sleqp
variable {K : Type*}

/-- the four parts of a solution of HiGHS, in the order of the arguments of `Highs_getSolution` -/
inductive HighsField
  | colValue | colDual | rowValue | rowDual
deriving DecidableEq

/-- the arrays which occur in calls of `Highs_getSolution`: those of the caller, for columns and rows, and those of the interface, lp/lpi_highs.c:20-58 -/
inductive HighsArr
  | userCols | userRows | colsPrimal | rowsPrimal | colsDual | rowsDual
deriving DecidableEq

/-- number of values of a part -/
def HighsField.count (n m : Nat) : HighsField → Nat
  | .colValue => n
  | .colDual => n
  | .rowValue => m
  | .rowDual => m

/-- `Highs_getSolution`: the parts of the solution are copied one after another, in the order given, to the arrays which are the arguments.  Two arguments
may be the same array. -/
def highsGet (n m : Nat) (sol : HighsField → Nat → K) (arg : HighsField → HighsArr) (order : List HighsField) (st : HighsArr → Nat → K) :
    HighsArr → Nat → K :=
  order.foldl (fun st f a => if a = arg f then firstN (f.count n m) (sol f) (st a) else st a) st

/-- the arguments in `highs_primal_sol`, lp/lpi_highs.c:554-580 -/
def highsPrimalArg : HighsField → HighsArr
  | .colValue => .userCols
  | .colDual => .colsDual
  | .rowValue => .rowsPrimal
  | .rowDual => .rowsDual

/-- `highs_primal_sol`, lp/lpi_highs.c:554-580, asked for the values: the array of the caller afterwards -/
def highsPrimalSol (n m : Nat) (sol : HighsField → Nat → K) (order : List HighsField) (st : HighsArr → Nat → K) : Nat → K :=
  highsGet n m sol highsPrimalArg order st .userCols

/-- the arguments in `highs_dual_sol`, lp/lpi_highs.c:582-612: the array for the multipliers of the rows is also given for their values -/
def highsDualArg (vars cons : Bool) : HighsField → HighsArr
  | .colValue => .colsPrimal
  | .colDual => if vars then .userCols else .colsDual
  | .rowValue => if cons then .userRows else .rowsDual
  | .rowDual => if cons then .userRows else .rowsDual

/-- `highs_dual_sol`, lp/lpi_highs.c:582-612: the arrays of the caller afterwards; `vars` and `cons` tell which of the two it gave -/
def highsDualSol (n m : Nat) (sol : HighsField → Nat → K) (order : List HighsField) (vars cons : Bool) (st : HighsArr → Nat → K) :
    (Nat → K) × (Nat → K) :=
  let s := highsGet n m sol (highsDualArg vars cons) order st
  (s .userCols, s .userRows)

/-- a solution of Gurobi: the attributes `X`, `PI` and `RC` -/
structure GurobiSol (K : Type*) where
  x : Nat → K
  pi : Nat → K
  rc : Nat → K

/-- `gurobi_primal_sol`, lp/lpi_gurobi.c:496-522, asked for the values -/
def gurobiPrimalSol (n : Nat) (sol : GurobiSol K) (old : Nat → K) : Nat → K := firstN n sol.x old

/-- `gurobi_dual_sol`, lp/lpi_gurobi.c:524-553: the arrays for variables and constraints afterwards -/
def gurobiDualSol (n m : Nat) (sol : GurobiSol K) (vars cons : Bool) (oldVars oldCons : Nat → K) : (Nat → K) × (Nat → K) :=
  (if vars then firstN n sol.rc oldVars else oldVars, if cons then firstN m sol.pi oldCons else oldCons)

/-- a solution of SoPlex: whether there is one, values, multipliers and reduced costs -/
structure SoplexSol (K : Type*) where
  found : Bool
  x : Nat → K
  dual : Nat → K
  redCost : Nat → K

/-- `soplex_primal_sol`, lp/lpi_soplex.cc:511-534, asked for the values; `none` is a failed assertion -/
def soplexPrimalSol (n : Nat) (sol : SoplexSol K) (old : Nat → K) : Option (Nat → K) := if sol.found then some (firstN n sol.x old) else none

/-- `soplex_dual_sol`, lp/lpi_soplex.cc:536-561 -/
def soplexDualSol (n m : Nat) (sol : SoplexSol K) (vars cons : Bool) (oldVars oldCons : Nat → K) : Option ((Nat → K) × (Nat → K)) :=
  if (vars || cons) && !sol.found then none
  else some (if vars then firstN n sol.redCost oldVars else oldVars, if cons then firstN m sol.dual oldCons else oldCons)

end Sleqp

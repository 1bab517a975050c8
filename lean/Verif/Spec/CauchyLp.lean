import Verif.Model.CauchyLp
import Verif.Spec.Soc
import Mathlib.Algebra.BigOperators.Group.Finset.Basic

/-! Linear programs, their basic solutions, and the linearised penalty problem of an iterate. -/

namespace Sleqp
open Finset
variable {K : Type*} [Field K] [LinearOrder K]

/-- value of constraint `i` -/
def LpArrays.row (lp : LpArrays K) (x : Nat → K) (i : Nat) : K := ∑ j ∈ range lp.numVars, lp.coeffs.value i j * x j

/-- objective -/
def LpArrays.cost (lp : LpArrays K) (x : Nat → K) : K := ∑ j ∈ range lp.numVars, lp.obj j * x j

/-- `v` is between the bounds; bounds of absolute value at least `inf` do not count -/
def LpWithin (inf lo hi v : K) : Prop := (lo ≤ -inf ∨ lo ≤ v) ∧ (inf ≤ hi ∨ v ≤ hi)

/-- feasible points of a linear program -/
structure LpFeasible (inf : K) (lp : LpArrays K) (x : Nat → K) : Prop where
  vars : ∀ j < lp.numVars, LpWithin inf (lp.varsLb j) (lp.varsUb j) (x j)
  cons : ∀ i < lp.numCons, LpWithin inf (lp.consLb i) (lp.consUb i) (lp.row x i)

/-- the answers of an LP solver: an optimal solution, the base status of a nonsingular basis belonging to it, and optimal
multipliers belonging to this basis -/
structure LpSolves (inf : K) (lp : LpArrays K) (a : LpSol K) : Prop where
  feas : LpFeasible inf lp a.primal
  val : a.objVal = lp.cost a.primal
  opt : ∀ x, LpFeasible inf lp x → lp.cost a.primal ≤ lp.cost x
  varLower : ∀ j < lp.numVars, a.varStats j = .lower → -inf < lp.varsLb j ∧ a.primal j = lp.varsLb j
  varUpper : ∀ j < lp.numVars, a.varStats j = .upper → lp.varsUb j < inf ∧ a.primal j = lp.varsUb j
  varZero : ∀ j < lp.numVars, a.varStats j = .zero → lp.varsLb j ≤ -inf ∧ inf ≤ lp.varsUb j
  consLower : ∀ i < lp.numCons, a.consStats i = .lower → -inf < lp.consLb i ∧ lp.row a.primal i = lp.consLb i
  consUpper : ∀ i < lp.numCons, a.consStats i = .upper → lp.consUb i < inf ∧ lp.row a.primal i = lp.consUb i
  consZero : ∀ i < lp.numCons, a.consStats i = .zero → lp.consLb i ≤ -inf ∧ inf ≤ lp.consUb i
  /-- there are as many nonbasic variables and constraints as variables -/
  size : (List.range lp.numVars).countP (fun j => decide (a.varStats j ≠ .basic)) +
    (List.range lp.numCons).countP (fun i => decide (a.consStats i ≠ .basic)) = lp.numVars
  /-- they determine the solution -/
  unique : ∀ v : Nat → K, (∀ j < lp.numVars, a.varStats j ≠ .basic → v j = 0) →
    (∀ i < lp.numCons, a.consStats i ≠ .basic → lp.row v i = 0) → ∀ j < lp.numVars, v j = 0
  /-- their gradients are linearly independent -/
  indep : ∀ (z y : Nat → K), (∀ j < lp.numVars, a.varStats j = .basic → z j = 0) → (∀ i < lp.numCons, a.consStats i = .basic → y i = 0) →
    (∀ j < lp.numVars, z j + ∑ i ∈ range lp.numCons, y i * lp.coeffs.value i j = 0) →
    (∀ j < lp.numVars, z j = 0) ∧ ∀ i < lp.numCons, y i = 0
  stat : ∀ j < lp.numVars, lp.obj j = a.varsDual j + ∑ i ∈ range lp.numCons, a.consDual i * lp.coeffs.value i j
  varBasic : ∀ j < lp.numVars, a.varStats j = .basic → a.varsDual j = 0
  consBasic : ∀ i < lp.numCons, a.consStats i = .basic → a.consDual i = 0
  varPos : ∀ j < lp.numVars, 0 < a.varsDual j → -inf < lp.varsLb j ∧ a.primal j = lp.varsLb j
  varNeg : ∀ j < lp.numVars, a.varsDual j < 0 → lp.varsUb j < inf ∧ a.primal j = lp.varsUb j
  consPos : ∀ i < lp.numCons, 0 < a.consDual i → -inf < lp.consLb i ∧ lp.row a.primal i = lp.consLb i
  consNeg : ∀ i < lp.numCons, a.consDual i < 0 → lp.consUb i < inf ∧ lp.row a.primal i = lp.consUb i

/-- violation of the bounds that are not infinite (of absolute value at least `inf / 2`) -/
def violInf (inf v lb ub : K) : K :=
  max (max (if lb ≤ -(inf / 2) then 0 else lb - v) (if inf / 2 ≤ ub then 0 else v - ub)) 0

/-- linearised constraint `i` of an iterate at the step `d` -/
def Iterate.lin (it : Iterate K) (n : Nat) (d : Nat → K) (i : Nat) : K :=
  it.consVal.value i + ∑ j ∈ range n, it.consJac.value i j * d j

/-- total violation of the linearised constraints -/
def linViol (e : LpEnv K) (it : Iterate K) (d : Nat → K) : K :=
  ∑ i ∈ range e.numCons, violInf e.inf (it.lin e.numVars d i) (e.bounds.consLb.value i) (e.bounds.consUb.value i)

/-- the linear part of the objective given to `solve`: zero if there is no gradient -/
def gradPart (grad : Option (Vec K)) (n : Nat) (d : Nat → K) : K :=
  match grad with
  | none => 0
  | some g => ∑ j ∈ range n, g.value j * d j

/-- linear model of the penalty function, without the constant term -/
def linModel (e : LpEnv K) (it : Iterate K) (grad : Option (Vec K)) (penalty : K) (d : Nat → K) : K :=
  gradPart grad e.numVars d + penalty * linViol e it d

/-- the step stays in the trust region and within the bounds of the variables -/
def InRegion (e : LpEnv K) (it : Iterate K) (radius : K) (d : Nat → K) : Prop :=
  ∀ j < e.numVars, |d j| ≤ radius ∧
    (e.bounds.varsLb.value j ≤ -(e.inf / 2) ∨ e.bounds.varsLb.value j ≤ it.primal.value j + d j) ∧
    (e.inf / 2 ≤ e.bounds.varsUb.value j ∨ it.primal.value j + d j ≤ e.bounds.varsUb.value j)

/-- bounds and iterates `set_iterate` may be called with: vectors and matrix of the right sizes, the primal point within its bounds,
finite values, no lower bound equal to plus infinity -/
structure LpIterate (e : LpEnv K) (it : Iterate K) : Prop where
  primal : it.primal.WF ∧ it.primal.dim = e.numVars
  consVal : it.consVal.WF ∧ it.consVal.dim = e.numCons
  jac : it.consJac.WF
  rows : it.consJac.numRows = e.numCons
  cols : it.consJac.numCols = e.numVars
  xfin : ∀ j < e.numVars, |it.primal.value j| < e.inf / 2
  cfin : ∀ i < e.numCons, |it.consVal.value i| < e.inf / 2
  box : ∀ j < e.numVars, e.bounds.varsLb.value j ≤ it.primal.value j ∧ it.primal.value j ≤ e.bounds.varsUb.value j

/-- bounds a problem may have -/
structure LpBounds (e : LpEnv K) : Prop where
  inf : 0 < e.inf
  sized : e.bounds.Sized e.numVars e.numCons
  vars : ∀ j < e.numVars, e.bounds.varsLb.value j < e.inf / 2 ∧ -(e.inf / 2) < e.bounds.varsUb.value j
  cons : ∀ i < e.numCons, e.bounds.consLb.value i < e.inf / 2 ∧ -(e.inf / 2) < e.bounds.consUb.value i ∧
    e.bounds.consLb.value i ≤ e.bounds.consUb.value i

/-- a step in the region that minimises the linear model -/
def OptStep (e : LpEnv K) (it : Iterate K) (r : K) (grad : Option (Vec K)) (penalty : K) (d : Nat → K) : Prop :=
  InRegion e it r d ∧ ∀ d', InRegion e it r d' → linModel e it grad penalty d ≤ linModel e it grad penalty d'

/-- what may be given to `solve` as gradient -/
def GradOk (e : LpEnv K) (grad : Option (Vec K)) : Prop := ∀ g, grad = some g → g.WF ∧ g.dim = e.numVars

/-- the linear programs an LP solver solves correctly -/
def LpCorrect (inf : K) (S : LpArrays K → Option (LpSol K)) : Prop := ∀ lp a, S lp = some a → LpSolves inf lp a

/-- it solves every linear program that has feasible points and is bounded -/
def LpComplete (inf : K) (S : LpArrays K → Option (LpSol K)) : Prop :=
  ∀ lp, (∃ x, LpFeasible inf lp x) → (∃ c, ∀ x, LpFeasible inf lp x → c ≤ lp.cost x) → ∃ a, S lp = some a

/-- calls that only ask for results -/
def LpOp.isQuery : LpOp K → Prop
  | .setIterate _ _ => False
  | .setRadius _ => False
  | .solve _ _ _ _ _ => False
  | _ => True

/-- calls as the solver makes them: valid iterates, trust radii, gradients, penalty parameters and LP solvers. If all constraints are
linear, their matrix `J0` is the same at every iterate. -/
def LpOp.Ok (e : LpEnv K) (J0 : Nat → Nat → K) : LpOp K → Prop
  | .setIterate it r => LpIterate e it ∧ 0 < r ∧ r < e.inf ∧
      (e.nonlinear = false → ∀ i < e.numCons, ∀ j < e.numVars, it.consJac.value i j = J0 i j)
  | .setRadius r => 0 < r ∧ r < e.inf
  | .solve S S' grad penalty _ => LpCorrect e.inf S ∧ LpCorrect e.inf S' ∧ GradOk e grad ∧ 0 ≤ penalty
  | _ => True

/-- iterate and trust radius after a call -/
def LpOp.next (c : Option (Iterate K × K)) : LpOp K → Option (Iterate K × K)
  | .setIterate it r => some (it, r)
  | .setRadius r => c.map fun p => (p.1, r)
  | _ => c

/-- iterate and trust radius after a sequence of calls -/
def LpOp.current (ops : List (LpOp K)) : Option (Iterate K × K) := ops.foldl LpOp.next none

/-- two matrices have the same columns -/
structure SameMat (n m : Nat) (J J' : Mat K) : Prop where
  wf : J'.WF
  rows : J'.numRows = m
  cols : J'.numCols = n
  col : ∀ j < n, J'.col j = J.col j

/-- infinite bounds are further away than the trust radius -/
def FarBounds (e : LpEnv K) (it : Iterate K) (r : K) : Prop :=
  ∀ j < e.numVars, (e.bounds.varsLb.value j ≤ -(e.inf / 2) → r ≤ it.primal.value j - e.bounds.varsLb.value j) ∧
    (e.inf / 2 ≤ e.bounds.varsUb.value j → r ≤ e.bounds.varsUb.value j - it.primal.value j)

/-- the step `p` meets the linearisation of an entry of a working set at the bound the entry names. An entry of state `both` has
bounds that are equal up to the tolerance; the linearisation is between them. -/
def EntryMet (e : LpEnv K) (it : Iterate K) (p : Nat → K) (w : WEntry) : Prop :=
  let v := if w.constraint then it.lin e.numVars p w.index else it.primal.value w.index + p w.index
  let lb := if w.constraint then e.bounds.consLb.value w.index else e.bounds.varsLb.value w.index
  let ub := if w.constraint then e.bounds.consUb.value w.index else e.bounds.varsUb.value w.index
  match w.state with
  | .lower => v = lb
  | .upper => v = ub
  | .both => isEq lb ub e.eps = true ∧ LpWithin (e.inf / 2) lb ub v
  | .inactive => False

end Sleqp

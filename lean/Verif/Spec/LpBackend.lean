import Verif.Model.LpBackend
import Verif.Spec.CauchyLp
import Verif.Spec.Mat

/-!
Specification for C80 and C81: the linear program and the bases which the calls of an LP interface describe.
-/

namespace Sleqp
open Finset
variable {K : Type*} [Field K] [LinearOrder K] {S : Type*}

/-- the bounds set last: rows (lower, upper), columns (lower, upper) -/
def lastBounds (h : List (LpiOp K S)) : Option ((Nat → K) × (Nat → K) × (Nat → K) × (Nat → K)) :=
  h.reverse.findSome? fun | .bounds cl cu vl vu => some (cl, cu, vl, vu) | _ => none

/-- the coefficients set last -/
def lastCoeffs (h : List (LpiOp K S)) : Option (Mat K) :=
  h.reverse.findSome? fun | .coeffs a => some a | _ => none

/-- the objective set last -/
def lastObjective (h : List (LpiOp K S)) : Option (Nat → K) :=
  h.reverse.findSome? fun | .objective c => some c | _ => none

/-- the linear program which the calls `h` describe: there is one once bounds and coefficients have been set -/
def lastLp (n m : Nat) (h : List (LpiOp K S)) : Option (LpArrays K) :=
  (lastBounds h).bind fun b => (lastCoeffs h).map fun a =>
    { numVars := n, numCons := m, obj := (lastObjective h).getD fun _ => 0
      consLb := b.1, consUb := b.2.1, varsLb := b.2.2.1, varsUb := b.2.2.2, coeffs := a }

/-- the points which the linear program of a library admits -/
structure LibLp.Feasible (n m : Nat) (l : LibLp K) (x : Nat → K) : Prop where
  colLb : ∀ j < n, ∀ b, l.colLb j = some b → b ≤ x j
  colUb : ∀ j < n, ∀ b, l.colUb j = some b → x j ≤ b
  rowLb : ∀ i < m, ∀ b, l.rowLb i = some b → b ≤ ∑ j ∈ range n, l.a i j * x j
  rowUb : ∀ i < m, ∀ b, l.rowUb i = some b → ∑ j ∈ range n, l.a i j * x j ≤ b

/-- its objective -/
def LibLp.cost (n : Nat) (l : LibLp K) (x : Nat → K) : K := ∑ j ∈ range n, l.obj j * x j

/-- the linear program of a library has the points and the objective of a given one, where bounds of size `thr` or more do not count -/
structure LibLp.Solves (thr : K) (l : LibLp K) (lp : LpArrays K) : Prop where
  feasible : ∀ x, l.Feasible lp.numVars lp.numCons x ↔ LpFeasible thr lp x
  cost : ∀ x, l.cost lp.numVars x = lp.cost x

/-- the points (columns of the problem, followed by row values) which the program held by Gurobi admits: equations, and bounds smaller than
`infty` -/
structure GurobiLpi.Feasible (infty : K) (s : GurobiLpi K) (z : Nat → K) : Prop where
  bounds : ∀ c < s.numCols + s.numRows, LpWithin infty (s.lb c) (s.ub c) (z c)
  rows : ∀ i < s.numRows, ∑ c ∈ range (s.numCols + s.numRows), s.a i c * z c = 0

/-- its objective -/
def GurobiLpi.cost (s : GurobiLpi K) (z : Nat → K) : K := ∑ c ∈ range (s.numCols + s.numRows), s.obj c * z c

/-- the program held by Gurobi is the given one, up to additional columns which are determined by the others -/
structure GurobiLpi.Solves (infty : K) (s : GurobiLpi K) (lp : LpArrays K) : Prop where
  sound : ∀ z, s.Feasible infty z → LpFeasible infty lp z
  complete : ∀ x, LpFeasible infty lp x → ∃ z, s.Feasible infty z ∧ ∀ j < lp.numVars, z j = x j
  rows : ∀ z, s.Feasible infty z → ∀ i < lp.numCons, z (lp.numVars + i) = lp.row z i
  cost : ∀ z, s.cost z = lp.cost z

/-- every position stored in some matrix handed over is stored in the last one -/
def SparsityKept (h : List (LpiOp K S)) : Prop :=
  ∀ a, lastCoeffs h = some a → ∀ a', .coeffs a' ∈ h → ∀ j < a'.numCols, ∀ e ∈ a'.col j, ∃ e' ∈ a.col j, e'.1 = e.1

/-- calls which do not store a basis under the index `k` -/
def LpiOp.Keeps (k : Nat) : LpiOp K S → Prop
  | .setBasis k' _ _ => k' ≠ k
  | .saveBasis k' => k' ≠ k
  | _ => True

end Sleqp

import Verif.Model.Problem
import Verif.Spec.Mat
import Mathlib.Algebra.BigOperators.Group.Finset.Basic

/-! Specification vocabulary for preprocessing: points satisfying variable bounds and linear constraints. -/

namespace Sleqp

open Finset

variable {K : Type*} [Field K] [LinearOrder K]

/-- value of the linear constraint `i` at the point `x` -/
def Prob.activity (p : Prob K) (x : Nat → K) (i : Nat) : K :=
  ∑ j ∈ range p.numVars, p.coeffs.value i j * x j

/-- the bounds of variable `j` hold -/
def Prob.VarOk (p : Prob K) (x : Nat → K) (j : Nat) : Prop :=
  p.varLb.value j ≤ x j ∧ x j ≤ p.varUb.value j

/-- the bounds of linear constraint `i` hold -/
def Prob.RowOk (p : Prob K) (x : Nat → K) (i : Nat) : Prop :=
  p.linLb.value i ≤ p.activity x i ∧ p.activity x i ≤ p.linUb.value i

/-- `x` satisfies all variable bounds and all linear constraints -/
def Prob.LinFeasible (p : Prob K) (x : Nat → K) : Prop :=
  (∀ j < p.numVars, p.VarOk x j) ∧ ∀ i < p.numLin, p.RowOk x i

/-- `x` is a point of finite size: neither a coordinate nor the absolute terms of a linear constraint together reach
half of the number that represents infinity. -/
structure Prob.FiniteAt (inf : K) (p : Prob K) (x : Nat → K) : Prop where
  coord : ∀ j < p.numVars, |x j| < inf / 2
  terms : ∀ i < p.numLin, ∑ j ∈ range p.numVars, |p.coeffs.value i j * x j| < inf / 2

/-- the coefficients of the linear constraints are finite -/
def Prob.FiniteCoeffs (inf : K) (p : Prob K) : Prop :=
  ∀ i < p.numLin, ∀ j < p.numVars, |p.coeffs.value i j| < inf / 2

/-- shape of a created problem (cf. C42): dimensions fit, vectors and matrix are well formed -/
structure Prob.WF (p : Prob K) : Prop where
  varLb : p.varLb.WF ∧ p.varLb.dim = p.numVars
  varUb : p.varUb.WF ∧ p.varUb.dim = p.numVars
  genLb : p.genLb.WF ∧ p.genLb.dim = p.numGen
  genUb : p.genUb.WF ∧ p.genUb.dim = p.numGen
  linLb : p.linLb.WF ∧ p.linLb.dim = p.numLin
  linUb : p.linUb.WF ∧ p.linUb.dim = p.numLin
  coeffs : p.coeffs.WF
  rows : p.coeffs.numRows = p.numLin
  cols : p.coeffs.numCols = p.numVars
  genBounds : ∀ i < p.numGen, p.genLb.value i ≤ p.genUb.value i

end Sleqp

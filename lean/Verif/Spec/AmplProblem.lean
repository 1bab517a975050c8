import Verif.Model.AmplProblem
import Verif.Spec.Ampl
import Mathlib.Algebra.Order.Ring.Abs

/-! Specification for C111: the feasible set of an AMPL model and that of a problem. -/

namespace Sleqp
open Finset
variable {K : Type*} [Field K] [LinearOrder K]

/-- A value within bounds as written in AMPL; `aInf` is the infinity of the ASL. -/
def AmplWithin (aInf l u v : K) : Prop := (l = -aInf ∨ l ≤ v) ∧ (u = aInf ∨ v ≤ u)

/-- The points which satisfy all bounds and all constraints of the AMPL model. -/
def AmplRead.Feasible (d : AmplRead K) (aInf : K) (y : Nat → K) : Prop :=
  (∀ j < d.numVars, AmplWithin aInf (d.varLb j) (d.varUb j) (y j)) ∧
    ∀ i < d.numCons, AmplWithin aInf (d.consLb i) (d.consUb i) (d.conVal y i)

/-- The constraints of a problem at a point: those of the function (`c`), then the linear ones. -/
def Prob.consAt (p : Prob K) (c : (Nat → K) → Nat → K) (y : Nat → K) (i : Nat) : K :=
  if i < p.numGen then c y i else ∑ j ∈ range p.numVars, p.coeffs.value (i - p.numGen) j * y j

/-- The points which satisfy all bounds and all constraints of the problem. -/
def Prob.FeasiblePt (p : Prob K) (inf : K) (c : (Nat → K) → Nat → K) (y : Nat → K) : Prop :=
  (∀ j < p.numVars, RespectsBounds inf (p.varLb.value j, p.varUb.value j) (y j)) ∧
    ∀ i < p.numGen + p.numLin, RespectsBounds inf (p.consLb.value i, p.consUb.value i) (p.consAt c y i)

/-- What the ASL promises about the nonzeros of the Jacobian: each offset belongs to exactly
one of them, and they are numbered by columns, then by rows. -/
structure AmplRead.Sparse (d : AmplRead K) : Prop where
  nonlin : d.numNonlin ≤ d.numCons
  bound : ∀ i < d.numCons, ∀ cg ∈ d.cgrad i, cg.1 < d.nzc ∧ cg.2 < d.numVars
  cover : ∀ k < d.nzc, ∃ i < d.numCons, ∃ j, (k, j) ∈ d.cgrad i
  order : ∀ i < d.numCons, ∀ i' < d.numCons, ∀ cg ∈ d.cgrad i, ∀ cg' ∈ d.cgrad i',
    cg.1 < cg'.1 → cg.2 < cg'.2 ∨ (cg.2 = cg'.2 ∧ i < i')
  one : ∀ i < d.numCons, ∀ i' < d.numCons, ∀ cg ∈ d.cgrad i, ∀ cg' ∈ d.cgrad i', cg.1 = cg'.1 → i = i' ∧ cg.2 = cg'.2

/-- The constraints from `nlc` on are affine with coefficients `a` and constants `c`, and the
Jacobian computed at the initial point contains the coefficients. -/
structure AmplRead.Affine (d : AmplRead K) (a : Nat → Nat → K) (c : Nat → K) : Prop where
  value : ∀ i, d.numNonlin ≤ i → i < d.numCons → ∀ y, d.conVal y i = ∑ j ∈ range d.numVars, a i j * y j + c i
  nonzero : ∀ i, d.numNonlin ≤ i → i < d.numCons → ∀ k j, (k, j) ∈ d.cgrad i → d.jacVal d.x k = a i j
  zero : ∀ i, d.numNonlin ≤ i → i < d.numCons → ∀ j < d.numVars, (∀ k, (k, j) ∉ d.cgrad i) → a i j = 0

/-- a finite number which is not mistaken for infinity or for zero -/
def Ordinary (inf zeroEps b : K) : Prop := |b| < inf / 2 ∧ (|b| ≤ zeroEps → b = 0)

/-- The bounds are infinite or ordinary numbers; those of the linear constraints remain so
after their constant was subtracted. -/
structure AmplRead.Tame (d : AmplRead K) (aInf inf zeroEps : K) (c : Nat → K) : Prop where
  varLb : ∀ j < d.numVars, d.varLb j = -aInf ∨ Ordinary inf zeroEps (d.varLb j)
  varUb : ∀ j < d.numVars, d.varUb j = aInf ∨ Ordinary inf zeroEps (d.varUb j)
  genLb : ∀ i < d.numNonlin, d.consLb i = -aInf ∨ Ordinary inf zeroEps (d.consLb i)
  genUb : ∀ i < d.numNonlin, d.consUb i = aInf ∨ Ordinary inf zeroEps (d.consUb i)
  linLb : ∀ i, d.numNonlin ≤ i → i < d.numCons →
    d.consLb i = -aInf ∨ (|d.consLb i| < inf / 2 ∧ Ordinary inf zeroEps (d.consLb i - c i))
  linUb : ∀ i, d.numNonlin ≤ i → i < d.numCons →
    d.consUb i = aInf ∨ (|d.consUb i| < inf / 2 ∧ Ordinary inf zeroEps (d.consUb i - c i))
  const : ∀ i, d.numNonlin ≤ i → i < d.numCons → |c i| ≤ inf / 2

/-- no lower bound of the model exceeds the upper bound -/
def AmplRead.Consistent (d : AmplRead K) : Prop :=
  (∀ j < d.numVars, d.varLb j ≤ d.varUb j) ∧ ∀ i < d.numCons, d.consLb i ≤ d.consUb i

end Sleqp

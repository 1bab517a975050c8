import Verif.Model.Feas
import Verif.Spec.Mat
import Mathlib.Algebra.BigOperators.Group.Finset.Basic
import Mathlib.Algebra.Order.Group.Abs

/-! Specification vocabulary: approximate optimality of a point with its multipliers. -/

namespace Sleqp

open Finset

variable {K : Type*} [Field K] [LinearOrder K]

/-- The conditions of Karush, Kuhn and Tucker for `min f(x)` subject to `lb ≤ x ≤ ub` and
`l ≤ c(x) ≤ u`, up to tolerances: constraint `i` is violated by at most `feas i`, component `j` of
the gradient of the Lagrangian is smaller than `stat j`, and a multiplier times the distance to the
bound it belongs to (the upper one for positive multipliers, the lower one for negative ones) is
smaller than `slack`. -/
structure ApproxKkt (n m : Nat) (p : Bounds K) (it : Iterate K) (feas stat : Nat → K) (slack : K) : Prop where
  cons : ∀ i < m, p.consLb.value i - feas i ≤ it.consVal.value i ∧ it.consVal.value i ≤ p.consUb.value i + feas i
  grad : ∀ j < n, |(∑ i ∈ range m, it.consDual.value i * it.consJac.value i j) +
    it.varsDual.value j + it.objGrad.value j| < stat j
  consSlack : ∀ i < m,
    (0 ≤ it.consDual.value i → max (p.consUb.value i - it.consVal.value i) 0 * it.consDual.value i < slack) ∧
    (it.consDual.value i ≤ 0 → max (it.consVal.value i - p.consLb.value i) 0 * -it.consDual.value i < slack)
  varsSlack : ∀ j < n,
    (0 ≤ it.varsDual.value j → max (p.varsUb.value j - it.primal.value j) 0 * it.varsDual.value j < slack) ∧
    (it.varsDual.value j ≤ 0 → max (it.primal.value j - p.varsLb.value j) 0 * -it.varsDual.value j < slack)

/-- The point is within its bounds. -/
def InBounds (n : Nat) (p : Bounds K) (it : Iterate K) : Prop :=
  ∀ j < n, p.varsLb.value j ≤ it.primal.value j ∧ it.primal.value j ≤ p.varsUb.value j

end Sleqp

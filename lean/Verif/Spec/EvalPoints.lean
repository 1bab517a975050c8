import Verif.Model.EvalPoints
import Verif.Spec.Soc
import Verif.Spec.Vec

/-! Specification for C110: evaluation within the variable bounds. -/

namespace Sleqp

variable {K : Type*} [Field K] [LinearOrder K]

/-- a vector of `n` values within bounds -/
def PointInBox (n : Nat) (lb ub x : Vec K) : Prop :=
  x.WF ∧ x.dim = n ∧ ∀ j < n, lb.value j ≤ x.value j ∧ x.value j ≤ ub.value j

/-- all values set in the record `log` of calls of a function, except those for checking derivatives, satisfy `B` -/
def SetsWithin {P : Type*} (B : P → Prop) (log : List (EvalCall P)) : Prop :=
  ∀ x r rej, EvalCall.set x r rej ∈ log → r ≠ .checkingDeriv → B x

/-- bounds are consistent, and none of them is so small that it cannot be told from zero -/
def ClearBounds (n : Nat) (lb ub : Vec K) (z : K) : Prop :=
  ∀ j < n, lb.value j ≤ ub.value j ∧ (lb.value j ≤ 0 ∨ z < lb.value j) ∧ (0 ≤ ub.value j ∨ ub.value j < -z)

/-- the vectors given to a step have the sizes the code creates them with -/
def PointOp.Sized (n m : Nat) : PointOp K → Prop
  | .start primal _ => primal.WF ∧ primal.dim = n
  | .optimize e => (e.step.WF ∧ e.step.dim = n) ∧ e.socStep.WF ∧ e.socStep.dim = n
  | .enter c => c.WF ∧ c.dim = m
  | .restore e => (e.step.WF ∧ e.step.dim = n + m) ∧ e.socStep.WF ∧ e.socStep.dim = n + m
  | _ => True

end Sleqp

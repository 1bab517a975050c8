import Verif.Spec.Direction

/-! Specification for C77 with any drop tolerance. -/

namespace Sleqp
open Finset
variable {K : Type*} [Field K] [LinearOrder K]
variable {n m : Nat}

/-- how much the linear model may change when the entries of the step change by at most `δ` -/
def LocalModel.linErr (q : LocalModel n m K) (δ : K) : K := (∑ j, |q.g j|) * δ + q.penalty * ((∑ i, ∑ j, |q.J i j|) * δ)

end Sleqp

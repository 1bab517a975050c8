import Verif.Model.State
import Verif.Spec.Feas

/-!
What the answers to state queries are measured against.
-/

namespace Sleqp

variable {K : Type*} [Field K] [LinearOrder K]

/-- The numbers kept for a point are those of the iterate `it` of a problem with `n` variables
and `m` constraints within the bounds `p`. -/
structure PointData.Describes (n m : Nat) (p : Bounds K) (pt : PointData K) (it : Iterate K) :
    Prop where
  obj : pt.objVal = it.objVal
  feas : it.feasibilityResiduum m p = some pt.feasRes
  slack : it.slacknessResiduum p = some pt.slackRes
  stat : it.stationarityResiduum n m = some pt.statRes

/-- `r` is the largest absolute value among the first `n` entries of `v`, up to values of
at most `eps`. -/
def IsNorm (eps r : K) (n : Nat) (v : Vec K) : Prop :=
  (∀ i < n, |v.value i| ≤ r) ∧ (r ≤ eps ∨ ∃ i < n, |v.value i| = r)

end Sleqp

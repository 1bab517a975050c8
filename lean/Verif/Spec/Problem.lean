import Verif.Model.Problem

/-! Specification vocabulary for problem creation. -/

namespace Sleqp

/-- value of a bound vector at an index; absent entries are zero -/
def bval {V : Type*} (zero : V) (v : Vec V) (i : Nat) : V := (at? v.ents i).getD zero

/-- no lower bound exceeds its upper bound, after conversion of the infinite ones -/
def BoundsOk {V : Type*} (o : BoundOps V) (zero : V) (n : Nat) (lb ub : Vec V) : Prop :=
  ∀ i < n, o.gt (o.convLb (bval zero lb i)) (o.convUb (bval zero ub i)) = false

end Sleqp

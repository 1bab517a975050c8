import Verif.Model.PyScale
import Verif.Spec.Python
import Verif.Spec.Scale

/-! What is meant by the elements of an array, and by the weights of a scaling in Python. -/

namespace Sleqp

/-- all elements of the array are within its memory -/
def NpArr.Valid {V : Type*} (a : NpArr V) : Prop := ∀ i < a.len, (a.get i).isSome

/-- the elements follow each other in memory, as for arrays which are not sections of others -/
def NpArr.Contiguous {V : Type*} (a : NpArr V) : Prop := a.stride = 1

/-- two scalings differ at most in the weight of variable `j`, which is `w` in the second one -/
def VarSet (s s' : Scaling) (j : Nat) (w : ℤ) : Prop :=
  s'.objW = s.objW ∧ s'.consW = s.consW ∧ s'.beta j = w ∧ ∀ k ≠ j, s'.beta k = s.beta k

/-- two scalings differ at most in the weight of constraint `i`, which is `w` in the second one -/
def ConsSet (s s' : Scaling) (i : Nat) (w : ℤ) : Prop :=
  s'.objW = s.objW ∧ s'.varW = s.varW ∧ s'.alpha i = w ∧ ∀ k ≠ i, s'.alpha k = s.alpha k

end Sleqp

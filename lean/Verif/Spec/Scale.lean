import Verif.Model.Scale
import Verif.Spec.Mat

/-! Specification vocabulary for scaling. -/

namespace Sleqp

/-- weight of variable `j` -/
def Scaling.beta (s : Scaling) (j : Nat) : ℤ := (s.varW[j]?).getD 0

/-- weight of constraint `i` -/
def Scaling.alpha (s : Scaling) (i : Nat) : ℤ := (s.consW[i]?).getD 0

/-- the scaling has one weight per variable and per constraint -/
structure Scaling.For (s : Scaling) (n m : Nat) : Prop where
  vars : s.varW.length = n
  cons : s.consW.length = m

variable {K : Type*} [Field K] [LinearOrder K]

/-- the value C `frexp` stores: the exponent `e` with `|x| = f * 2 ^ e`, `f ∈ [1/2, 1)`, and 0 for 0 -/
def IsFrexp (x : K) (e : ℤ) : Prop :=
  x = 0 ∧ e = 0 ∨ (2 : K) ^ (e - 1) ≤ |x| ∧ |x| < (2 : K) ^ e

end Sleqp

import Verif.Model.SolverCreate
import Verif.Spec.Vec
import Verif.Spec.Scale

/-! What C84 says. -/

namespace Sleqp
namespace SolverSetup
variable {K : Type*} [Field K] [LinearOrder K]

/-- variables fixed by preprocessing (none without preprocessing) -/
def fixedVars (S : SolverSetup K) : List (Nat × K) := S.fixed.getD []

/-- factor by which variable `j` of the user's problem is that of the scaled problem -/
def factor (S : SolverSetup K) (j : Nat) : K :=
  match S.scaling with
  | none => 1
  | some s => 2 ^ s.beta j

/-- exponent by which the scaled objective differs from that of the user -/
def objExp (S : SolverSetup K) (lsq : Bool) : ℤ :=
  match S.scaling with
  | none => 0
  | some s => if lsq then 2 * s.objW else s.objW

/-- The scaling fits the problem; the fixed variables are distinct variables, in order. -/
structure Valid (S : SolverSetup K) : Prop where
  scaling : ∀ s, S.scaling = some s → s.For S.numVars S.numCons
  sorted : Srt S.fixedVars
  range : ∀ e ∈ S.fixedVars, e.1 < S.numVars

end SolverSetup
end Sleqp

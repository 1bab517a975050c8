import Verif.Model.TrialPar
import Verif.Spec.TrialPoint
import Verif.Spec.Parametric

/-! What is assumed of the linear programs solved in the search for a radius (C119). -/

namespace Sleqp
open Matrix
variable {K : Type*} [Field K] [LinearOrder K]

/-- `sol r` is the solution of the linear program for radius `r`, and this is what the solver returns: for the radius given (`cd`), and for all others -/
structure ParLps (e : LpEnv K) (H : CauchyDir K → Matrix (Fin e.numVars) (Fin e.numVars) K) (par : ParCalls K) (t : TrialSolver K) (cd : CauchyDir K)
    (sol : K → Fin e.numVars → K) : Prop where
  family : LpFamily (e.model t.cd.iterate (H cd) cd.penalty) (InBox e t.cd.iterate) sol
  first : dense e.numVars cd.step = sol t.cd.radius
  others : ∀ r, ∀ v : Vec K, v.WF → v.dim = e.numVars → ∃ w, par.lpAt cd r v = some w ∧ (w.WF ∧ w.dim = e.numVars) ∧ dense e.numVars w = sol r

end Sleqp

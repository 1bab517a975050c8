import Verif.Model.TrialPoint
import Verif.Spec.CauchyStep
import Verif.Spec.Direction
import Verif.Lemmas.QnVec

/-! What is assumed of the parameters of the trial point solver. -/

namespace Sleqp
open Finset Matrix
variable {K : Type*} [Field K] [LinearOrder K]

/-- the local model at an iterate, with a given Hessian and penalty parameter -/
def LpEnv.model (e : LpEnv K) (it : Iterate K) (H : Matrix (Fin e.numVars) (Fin e.numVars) K) (penalty : K) : LocalModel e.numVars e.numCons K :=
  ⟨it.objVal, dense e.numVars it.objGrad, dense e.numCons it.consVal, fun i j => it.consJac.value i j, H, dense e.numCons e.bounds.consLb,
    dense e.numCons e.bounds.consUb, penalty⟩

/-- the LP solver is correct, the products are those with the matrices `H`, norms are Euclidean -/
structure TrialCalls.Ok (e : LpEnv K) (H : CauchyDir K → Matrix (Fin e.numVars) (Fin e.numVars) K) (c : TrialCalls K) : Prop where
  lp : c.lp.Correct e.inf
  hess : ∀ cd (d r : Vec K), VOk e.numVars d → VOk e.numVars r → ∃ h, c.hess cd d r = some h ∧ VOk e.numVars h ∧ dense e.numVars h = H cd *ᵥ dense e.numVars d
  norm : ∀ v, VOk e.numVars v → 0 ≤ c.norm v ∧ c.norm v * c.norm v = dense e.numVars v ⬝ᵥ dense e.numVars v

/-- the settings are in their ranges -/
structure TrialSettings.Ok (s : TrialSettings K) : Prop where
  cauchyPos : 0 < s.ls.cauchyTau
  cauchyLe : s.ls.cauchyTau ≤ 1
  etaNonneg : 0 ≤ s.ls.cauchyEta
  lsPos : 0 < s.ls.lsTau
  lsLe : s.ls.lsTau ≤ 1
  cutoff : 0 ≤ s.ls.lsCutoff

/-- the state before a trial point is computed -/
structure TrialSolver.Ok (e : LpEnv K) (J0 : Nat → Nat → K) (s0 : CauchyLp K) (t : TrialSolver K) : Prop where
  cd : t.cd.Ok e J0 s0
  radius : 0 < t.trustRadius
  cauchy : t.cauchy.primal.dim = e.numVars ∧ VOk e.numCons t.cauchy.consJac ∧ VOk e.numVars t.cauchy.hess
  trial : t.trial.primal.dim = e.numVars ∧ t.trial.consJac.dim = e.numCons ∧ t.trial.hess.dim = e.numVars
  newtonWork : t.newtonWork.dim = e.numVars
  multWork : t.multWork.dim = e.numCons

/-- linearised constraints are finite in the trust region -/
def FinLin (e : LpEnv K) (it : Iterate K) (r : K) : Prop := ∀ d, InRegion e it r d → ∀ i < e.numCons, |it.lin e.numVars d i| < e.inf / 2

/-- the point reached by the step satisfies the bounds of the variables -/
def InBox (e : LpEnv K) (it : Iterate K) (d : Fin e.numVars → K) : Prop :=
  ∀ j : Fin e.numVars, e.bounds.varsLb.value j ≤ it.primal.value j + d j ∧ it.primal.value j + d j ≤ e.bounds.varsUb.value j

end Sleqp

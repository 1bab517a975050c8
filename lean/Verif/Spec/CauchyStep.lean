import Verif.Spec.CauchyLp
import Verif.Spec.Soc
import Verif.Props.WorkingSet
import Verif.Model.CauchyStep

/-! What the Cauchy direction should be. -/

namespace Sleqp
open Finset
variable {K : Type*} [Field K] [LinearOrder K]

/-- no variable has equal bounds (up to the tolerance) -/
def NoFixed (e : LpEnv K) : Prop := ∀ j < e.numVars, isEq (e.bounds.varsLb.value j) (e.bounds.varsUb.value j) e.eps = false

/-- step and working set belong to the minimiser `p` of the linear model for the penalty parameter `penalty`: the step is `p` up to dropped values, the working set is
valid, has linearly independent gradients, and its entries are met at `p` -/
structure CauchyDirFor (e : LpEnv K) (it : Iterate K) (r penalty : K) (step : Vec K) (work : WSet) (p : Nat → K) : Prop where
  opt : OptStep e it r (some it.objGrad) penalty p
  step : step.WF ∧ step.dim = e.numVars ∧ ∀ j < e.numVars, step.value j = dropSmall e.zeroEps (p j)
  work : ∃ l, WRep e.numVars e.numCons work l ∧ work.valid = some true ∧ l.length ≤ e.numVars ∧
    (∀ c : Nat → K, (∀ j < e.numVars, ∑ k ∈ range l.length, c k * workMat l it.consJac.value k j = 0) → ∀ k < l.length, c k = 0) ∧
    ∀ x ∈ l, EntryMet e it p x

/-- a state of the LP-based solver after calls as the trial point solver makes them, with iterate `it` and trust radius `r` set last -/
def LpAt (e : LpEnv K) (J0 : Nat → Nat → K) (s0 : CauchyLp K) (c : Option (Iterate K × K)) (s : CauchyLp K) : Prop :=
  ∃ ops, (∀ op ∈ ops, op.Ok e J0) ∧ LpOp.current ops = c ∧ LpOp.run e (CauchyLp.create e s0) ops = some s

/-- the LP solver is correct at every call -/
structure LpCalls.Correct (inf : K) (c : LpCalls K) : Prop where
  main : LpCorrect inf c.main
  red : LpCorrect inf c.red
  feas : LpCorrect inf c.feas
  mixed : ∀ k, LpCorrect inf (c.mixed k)

/-- and solves every feasible bounded linear program -/
structure LpCalls.Complete (inf : K) (c : LpCalls K) : Prop where
  main : LpComplete inf c.main
  red : LpComplete inf c.red
  feas : LpComplete inf c.feas
  mixed : ∀ k, LpComplete inf (c.mixed k)

/-- `v` is the smallest total violation of the linearised constraints in the region -/
def MinViol (e : LpEnv K) (it : Iterate K) (r v : K) : Prop :=
  (∃ d, InRegion e it r d ∧ linViol e it d = v) ∧ ∀ d, InRegion e it r d → v ≤ linViol e it d

/-- the state the trial point solver is in before the Cauchy direction is computed -/
structure CauchyDir.Ok (e : LpEnv K) (J0 : Nat → Nat → K) (s0 : CauchyLp K) (t : CauchyDir K) : Prop where
  cauchy : ∃ c, LpAt e J0 s0 c t.cauchy
  iterate : (LpOp.setIterate t.iterate t.radius).Ok e J0
  grad : t.iterate.objGrad.WF ∧ t.iterate.objGrad.dim = e.numVars
  work : ∃ l, WRep e.numVars e.numCons t.work l
  far : FarBounds e t.iterate t.radius
  penalty : 0 < t.penalty
  merit : meritFunc e.numCons e.bounds t.iterate t.penalty = some t.merit
  reset : t.performedReset = false

end Sleqp

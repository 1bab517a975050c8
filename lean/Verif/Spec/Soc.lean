import Verif.Model.Feas
import Verif.Spec.WorkingSet
import Verif.Spec.Vec
import Verif.Spec.AugJac

/-! Specification of the residuals of active entries. -/

namespace Sleqp
variable {K : Type*} [Field K] [LinearOrder K]

/-- distance from the value of an active entry (a variable or a constraint) to the bound it is
active at -/
def WEntry.gap (e : WEntry) (p : Bounds K) (x c : Nat → K) : K :=
  let v := if e.constraint then c e.index else x e.index
  let lb := if e.constraint then p.consLb else p.varsLb
  let ub := if e.constraint then p.consUb else p.varsUb
  if e.state = .lower then lb.value e.index - v else ub.value e.index - v

/-- the bounds of an entry active at both bounds agree -/
def Tight (p : Bounds K) (l : List WEntry) : Prop :=
  ∀ e ∈ l, e.state = .both →
    if e.constraint then p.consLb.value e.index = p.consUb.value e.index
    else p.varsLb.value e.index = p.varsUb.value e.index

/-- the bounds of a problem with `n` variables and `m` constraints are valid vectors -/
structure Bounds.Sized (n m : Nat) (p : Bounds K) : Prop where
  wvl : p.varsLb.WF
  wvu : p.varsUb.WF
  wcl : p.consLb.WF
  wcu : p.consUb.WF
  dvl : p.varsLb.dim = n
  dvu : p.varsUb.dim = n
  dcl : p.consLb.dim = m
  dcu : p.consUb.dim = m

/-- values up to the tolerance count as zero -/
def dropSmall (tol v : K) : K := if |v| ≤ tol then 0 else v

/-- `solve` returns solutions of minimum norm for the gradients of the active entries (what C66 and
C67 prove of the augmented Jacobian) -/
def MinNormService (solve : Vec K → Option (Vec K)) (n : Nat) (l : List WEntry) (J : Nat → Nat → K) : Prop :=
  ∀ rhs : Vec K, rhs.WF → rhs.dim = l.length →
    ∃ v, solve rhs = some v ∧ v.WF ∧ v.dim = n ∧ IsMinNorm n l.length (workMat l J) rhs.value v.value

end Sleqp

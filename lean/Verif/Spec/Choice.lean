import Verif.Model.Choice

/-! What the algorithms chosen for a problem require. -/

namespace Sleqp

/-- the algorithms that ignore bounds, or constraints, require that there are none -/
def CauchyAlg.Suits (p : ProblemKind) : CauchyAlg → Prop
  | .unconstrained => p.unconstrained = true
  | .box => p.numCons = 0
  | .lp => True

/-- the standard system is indefinite, the reduced one positive definite -/
def SystemAlg.Suits (b : FactKind) (p : ProblemKind) : SystemAlg → Prop
  | .unconstrained => p.unconstrained = true
  | .box => p.numCons = 0
  | .standard => b.psd = false
  | .reduced => True
  | .direct => b.qr = true

/-- Gauss-Newton steps require residuals -/
def EqpAlg.Suits (p : ProblemKind) : EqpAlg → Prop
  | .gaussNewton => p.func = .lsq
  | _ => True

structure Algorithms.Suit (b : FactKind) (p : ProblemKind) (a : Algorithms) : Prop where
  cauchy : a.cauchy.Suits p
  system : a.system.Suits b p
  eqp : a.eqp.Suits p

/-- the algorithms are the ones the user asked for; `auto` leaves the choice to the library -/
structure Algorithms.Asked (s : MethodSettings) (p : ProblemKind) (a : Algorithms) : Prop where
  dual : a.dual = s.dual
  standard : s.system = .standard → p.numCons ≠ 0 → p.unconstrained = false → a.system = .standard
  reduced : s.system = .reduced → p.numCons ≠ 0 → p.unconstrained = false → a.system = .reduced
  direct : s.system = .direct → p.numCons ≠ 0 → p.unconstrained = false → a.system = .direct
  lsqr : s.tr = .lsqr → a.eqp = .gaussNewton
  cg : s.tr = .cg → a.eqp = .cg
  trlib : s.tr = .trlib → a.eqp = .trlib

end Sleqp

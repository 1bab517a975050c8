import Verif.Model.Feas

/-! Model of the query for the violated constraints in `/repo/src/main/solver.c`. -/

namespace Sleqp

variable {K : Type*} [Field K] [LinearOrder K]

/-- `sleqp_iterate_get_violated_constraints`, iterate.c:401-414: the tolerance is not used. -/
def Iterate.violated (p : Bounds K) (it : Iterate K) (_feasEps : K) : List Nat :=
  violatedConstraints it.consVal p.consLb p.consUb

/-- `sleqp_solver_violated_constraints`, solver.c:382-398: `p` are the bounds of the original problem,
`feasTol` the feasibility tolerance of the settings. -/
def solverViolated (feasTol : K) (p : Bounds K) (it : Iterate K) : List Nat :=
  it.violated p feasTol

end Sleqp

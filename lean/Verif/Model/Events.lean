import Verif.Model.Scale
import Verif.Model.Polish

/-!
Model of what the solver hands to user callbacks: `on_problem_solver_accepted_iterate` in `/repo/src/main/solver.c` and the end of
`sleqp_solver_solve` in `/repo/src/main/solver/solve.c`. The internal solver works on the scaled and preprocessed problem;
the preprocessor's restoration is a parameter.
-/

namespace Sleqp
variable {K : Type*} [Field K] [LinearOrder K]

/-- `do_restore_iterate`, solver.c:57-85: preprocessor (identity if there is none), then scaling; copies keep the contents. -/
def restoreIterate (pre : Iterate K → Option (Iterate K)) (scaling : Option Scaling) (lsq : Bool) (source : Iterate K) :
    Option (Iterate K) :=
  (pre source).bind fun it =>
    match scaling with
    | some s => s.unscaleIterate lsq it
    | none => some it

/-- what is visible to the user during an event: the iterate passed to the callback and the one returned by
`sleqp_solver_solution`, solver.c:372-380 -/
structure EventView (K : Type*) where
  passed : Iterate K
  solution : Iterate K

/-- `on_problem_solver_accepted_iterate`, solver.c:241-275 (with at least one callback), called by
`sleqp_problem_solver_accept_step`, problem_solver/step.c:56-131, before the iterates are swapped. -/
def acceptedEvent (pre : Iterate K → Option (Iterate K)) (scaling : Option Scaling) (lsq : Bool) (iterate trial : Iterate K) :
    Option (EventView K) :=
  (restoreIterate pre scaling lsq iterate).map fun o => ⟨trial, o⟩

/-- end of `sleqp_solver_solve`, solver/solve.c:256-298: iterate and working set passed to the `finished` callbacks, and those
returned by `sleqp_solver_solution` afterwards; `polish` acts on the working set of the internal iterate. -/
def finishedEvent (pre : Iterate K → Option (Iterate K)) (scaling : Option Scaling) (lsq : Bool)
    (polish : Iterate K → WSet → Option WSet) (it : Iterate K) (ws : WSet) : Option ((Iterate K × WSet) × (Iterate K × WSet)) :=
  (restoreIterate pre scaling lsq it).bind fun o =>
  (polish it ws).map fun ws' => ((o, ws), (o, ws'))

end Sleqp

import Verif.Model.DerivCheck
import Verif.Model.Restoration

/-!
The derivative check (`/repo/src/main/deriv_check.c`, called in `/repo/src/main/problem_solver/solve.c`) of least-squares functions
(`/repo/src/main/lsq.c`), among them the function minimized during restoration phases (`/repo/src/main/restoration.c`), whose solver is created
with the settings of the user (`/repo/src/main/solver/phase.c`).
-/

namespace Sleqp
variable {P K : Type*} [Field K] [LinearOrder K]

/-- A least-squares function without general constraints as the checker sees it, lsq.c:144-263 by way of func.c (which clears the constraint values and
Jacobian, func.c:204-229): `setV` is `set_value` of the
user, returning the state at the new point.  Simplification: the object is created (lsq.c:297-370) whenever a point is set; all it keeps is the
residual at the current point.  The objective is 0 if an assertion fails. -/
def lsqDcEnv (u : LsqUser P K) (setV : Vec K → Option P) (lm zeroEps perturbation tol : K) : DcEnv K where
  numVars := u.numVars
  numCons := 0
  rejects _ := false
  obj x := (((setV x).bind fun p => (Lsq.create u p lm zeroEps).bind (Lsq.objVal u)).map Prod.fst).getD 0
  grad x g := (setV x).bind fun p => (Lsq.create u p lm zeroEps).bind fun f => (Lsq.objGrad u f g).map Prod.fst
  cons _ r := some r.clear
  jac _ r := some r.clear
  hess x v _ r := (setV x).bind fun p => (Lsq.create u p lm zeroEps).bind fun f => (Lsq.hessProduct u f v r).map Prod.fst
  perturbation := perturbation
  tol := tol
  zeroEps := zeroEps

/-- the restoration problem as its checker sees it: `create_restoration_solver`, solver/phase.c:67-96, with the function of restoration.c:346-385
(no constraints, Levenberg-Marquardt factor 0) -/
def restDcEnv (pr : RestProblem K) (zeroEps perturbation tol : K) : DcEnv K :=
  lsqDcEnv (restUser pr zeroEps) (fun z => (⟨Vec.create pr.numVars 0, Vec.create pr.numCons 0, Vec.create pr.numCons 0,
    Mat.create pr.numCons pr.numVars 0 (fun _ => 0) (fun _ => 0), false, false, Vec.create pr.numVars 0⟩ : RestState K).set pr z)
    0 zeroEps perturbation tol

/-- an iterate of a problem with `n` variables and without constraints -/
def freeIterate (n : Nat) (x : Vec K) (obj : K) (grad : Vec K) : Iterate K :=
  ⟨x, obj, grad, Vec.create 0 0, Mat.create 0 n 0 (fun _ => 0) (fun _ => 0), Vec.create 0 0, Vec.create n 0⟩

/-- the checker as created for such a problem, deriv_check.c:673-740 -/
def freeChecker (n : Nat) (x : Vec K) : DcState K := ⟨x, [], freeIterate n (Vec.create n 0) 0 (Vec.create n n), true⟩

/-- The check when the solver enters a restoration phase: `fill_restoration_iterate`, solver/phase.c:146-191, then `sleqp_problem_solver_solve` of the
restoration solver, problem_solver/solve.c:94-204, which checks the derivatives asked for by the settings of the user before its first iteration. -/
def restCheck (pr : RestProblem K) (lb ub : Vec K) (zeroEps perturbation tol : K) (fl : DcFlags) (x consVal : Vec K) (jac : Mat K) : Option DcOut :=
  (Lsq.create (restUser pr zeroEps) (⟨x, Vec.create pr.numCons 0, consVal, jac, false, false, x⟩ : RestState K) 0 zeroEps).bind fun f =>
    (enterRestoration pr zeroEps lb ub f x consVal jac (Vec.create (pr.numVars + pr.numCons) (pr.numVars + pr.numCons))).bind fun r =>
      (dcPerform (restDcEnv pr zeroEps perturbation tol) fl (freeIterate (pr.numVars + pr.numCons) r.1 r.2.1 r.2.2.1)
        (freeChecker (pr.numVars + pr.numCons) r.1)).map Prod.fst

end Sleqp

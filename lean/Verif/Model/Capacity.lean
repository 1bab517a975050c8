import Verif.Model.SolverCreate

/-!
Model of how space is reserved in the vectors and matrices handed to the user's callbacks: the callbacks declare how many nonzeros they are
going to store (or do not), the layers the library puts around a function pass the numbers on and reserve space in their own vectors, and the
callbacks then store their results by `sleqp_vec_push` and `sleqp_mat_push`, which do not check the space.

Only capacities are modelled. Left out: the vectors for products with Hessians and Jacobians of residuals, for which nothing is reserved and
callbacks have to reserve space themselves (the fixtures in `/repo/src/test` do), and vectors only the library itself writes to.
-/

namespace Sleqp

/-- The numbers of nonzeros reported by a function, `none` being `SLEQP_NONE` (func.c:102-127). For functions of least-squares type `grad` is the
number for adjoint products and `hess` that for forward products (lsq.c:108-116), `res` the number for residuals. -/
structure Decl where
  grad : Option Nat
  val : Option Nat
  jac : Option Nat
  hess : Option Nat
  res : Option Nat
  deriving DecidableEq

/-- nothing reported -/
def Decl.nothing : Decl := ⟨none, none, none, none, none⟩

/-- `sleqp_vec_reserve` / `sleqp_mat_reserve` if a number was reported: the capacity never shrinks, sparse/vec.c:146-162, sparse/mat.c:56-72. -/
def resv (cap : Nat) : Option Nat → Nat
  | none => cap
  | some a => max cap a

/-- A function with the layers around it. For the user's function `buf` is the capacity of the vector for constraint values of a dynamic function
(dyn.c:234-273) and of the vector for residuals of a least-squares function (lsq.c:297-370); `fixedVar` has the number of fixed variables and the capacities
of its gradient and Jacobian (preprocessor/fixed_var_func.c:375-442). -/
inductive CapFunc
  | user (kind : FuncKind) (n m r buf : Nat)
  | scaled (f : CapFunc)
  | quasi (f : CapFunc)
  | fixedVar (k grad jac : Nat) (f : CapFunc)
  deriving DecidableEq

namespace CapFunc

/-- type of the function: problem_scaling.c:341-445 and preprocessor/transform.c:161-216 keep it, a quasi-Newton function is a regular one
(quasi_newton/quasi_newton.c:87-110) -/
def kind : CapFunc → FuncKind
  | user k _ _ _ _ => k
  | scaled f => f.kind
  | quasi _ => .regular
  | fixedVar _ _ _ f => f.kind

/-- number of variables -/
def vars : CapFunc → Nat
  | user _ n _ _ _ => n
  | scaled f => f.vars
  | quasi f => f.vars
  | fixedVar k _ _ f => f.vars - k

/-- number of constraints -/
def cons : CapFunc → Nat
  | user _ _ m _ _ => m
  | scaled f => f.cons
  | quasi f => f.cons
  | fixedVar _ _ _ f => f.cons

/-- `sleqp_lsq_func_nonzeros`, lsq.c:372-406, with `scaled_lsq_func_nonzeros`, problem_scaling.c:189-208, and `fixed_lsq_func_nonzeros`,
preprocessor/fixed_var_func.c:276-307 -/
def lsqNonzeros (d : Decl) : CapFunc → CapFunc × Decl
  | user k n m r buf => (user k n m r buf, d)
  | scaled f => (scaled (f.lsqNonzeros d).1, (f.lsqNonzeros d).2)
  | quasi f => (quasi f, .nothing)
  | fixedVar k g j f =>
    let e := (f.lsqNonzeros d).2
    (fixedVar k g (resv j e.jac) (f.lsqNonzeros d).1, ⟨e.grad.map (min (f.vars - k)), e.val, e.jac, e.hess, e.res⟩)

/-- `sleqp_func_nonzeros`, func.c:102-127, with `dyn_func_nonzeros`, dyn.c:52-85, `lsq_func_nonzeros`, lsq.c:66-119 (of a layer around a least-squares
function only the reported numbers; its own vectors are written to by the library only), `scaled_func_nonzeros`, problem_scaling.c:69-86, the
quasi-Newton function, which has no such callback, quasi_newton/quasi_newton.c:87-110, and `fixed_var_func_nonzeros`,
preprocessor/fixed_var_func.c:51-102. `d` is what the user's function reports at the current point. -/
def nonzeros (d : Decl) : CapFunc → CapFunc × Decl
  | user k n m r buf =>
    match k with
    | .regular => (user k n m r buf, d)
    | .dynamic => (user k n m r (resv buf d.val), d)
    | .lsq => (user k n m r (resv buf d.res), d)
  | scaled f =>
    if f.kind = .lsq then (scaled f).lsqNonzeros d
    else (scaled (f.nonzeros d).1, (f.nonzeros d).2)
  | quasi f => (quasi f, .nothing)
  | fixedVar k g j f =>
    if f.kind = .lsq then (fixedVar k g j f).lsqNonzeros d
    else
      let e := (f.nonzeros d).2
      (fixedVar k (max g (e.grad.getD f.vars)) (max j (e.jac.getD (f.vars * f.cons))) (f.nonzeros d).1,
        ⟨e.grad.map (min (f.vars - k)), e.val, e.jac, e.hess.map (min (f.vars - k)), e.res⟩)

/-- Capacity of the vector the user's callback for the gradient (or adjoint products) gets when the gradient is asked for with a vector of capacity
`c`: `scaled_func_obj_grad`, problem_scaling.c:101-112, `quasi_newton_func_obj_grad`, quasi_newton/quasi_newton.c:43-51, `fixed_var_obj_grad`,
preprocessor/fixed_var_func.c:112-125, `lsq_func_obj_grad`, lsq.c:156-169, `scaled_lsq_func_jac_adjoint`, problem_scaling.c:249-273,
`fixed_lsq_func_jac_adjoint`, preprocessor/fixed_var_func.c:309-329 (whose vector is created with space for all variables). -/
def gradTarget : CapFunc → Nat → Nat
  | user _ _ _ _ _, c => c
  | scaled f, c => f.gradTarget c
  | quasi f, c => f.gradTarget c
  | fixedVar _ g _ f, _ => f.gradTarget (if f.kind = .lsq then f.vars else g)

/-- Capacity of the vector the user's callback for the constraint values gets: `dyn_func_eval`, dyn.c:87-141, uses the vector of the dynamic function;
all layers pass on the vector (`scaled_func_cons_val`, problem_scaling.c:114-125, `quasi_newton_func_cons_val`, quasi_newton/quasi_newton.c:53-61,
`fixed_var_cons_val`, preprocessor/fixed_var_func.c:127-133, `lsq_func_cons_val`, lsq.c:171-189) or evaluate the function inside and copy
(`scaled_dyn_func_eval`, problem_scaling.c:275-292, `fixed_dyn_func_eval`, preprocessor/fixed_var_func.c:331-343, `sleqp_dyn_func_eval`,
dyn.c:275-290). -/
def valTarget : CapFunc → Nat → Nat
  | user k _ _ _ buf, c => if k = .dynamic then buf else c
  | scaled f, c => f.valTarget c
  | quasi f, c => f.valTarget c
  | fixedVar _ _ _ f, c => f.valTarget c

/-- Capacity of the matrix the user's callback for the Jacobian gets: `scaled_func_cons_jac`, problem_scaling.c:127-138, `quasi_newton_func_cons_jac`,
quasi_newton/quasi_newton.c:63-71, `fixed_var_cons_jac`, preprocessor/fixed_var_func.c:135-148, `lsq_func_cons_jac`, lsq.c:191-209. -/
def jacTarget : CapFunc → Nat → Nat
  | user _ _ _ _ _, c => c
  | scaled f, c => f.jacTarget c
  | quasi f, c => f.jacTarget c
  | fixedVar _ _ j f, _ => f.jacTarget j

/-- Capacity of the vector the user's callback for the residuals gets: that of the least-squares function itself, `compute_lsq_residual`, lsq.c:121-142,
from which the layers copy (`scaled_lsq_func_residuals`, problem_scaling.c:210-221, `fixed_lsq_func_residuals`,
preprocessor/fixed_var_func.c:249-255, `sleqp_lsq_func_residuals`, lsq.c:432-448). -/
def resTarget : CapFunc → Nat
  | user _ _ _ _ buf => buf
  | scaled f => f.resTarget
  | quasi f => f.resTarget
  | fixedVar _ _ _ f => f.resTarget

end CapFunc

/-- A problem: number of linear constraints and of their coefficients, capacities of the vector and matrix for the values and the Jacobian of the general
constraints, problem.c:292-362. -/
structure CapProblem where
  func : CapFunc
  lin : Nat
  linNnz : Nat
  genVal : Nat
  genJac : Nat
  deriving DecidableEq

namespace CapProblem

/-- `sleqp_problem_create`, problem.c:292-362: both containers are created without capacity -/
def create (func : CapFunc) (lin linNnz : Nat) : CapProblem := ⟨func, lin, linNnz, 0, 0⟩

/-- `sleqp_problem_nonzeros`, problem.c:476-505 -/
def nonzeros (d : Decl) (P : CapProblem) : CapProblem × Decl :=
  let e := (P.func.nonzeros d).2
  (⟨(P.func.nonzeros d).1, P.lin, P.linNnz, P.genVal, resv P.genJac e.jac⟩,
    ⟨e.grad, e.val.map (· + P.lin), e.jac.map (· + P.linNnz), e.hess, e.res⟩)

/-- `sleqp_problem_obj_grad`, problem.c:543-547 -/
def gradTarget (P : CapProblem) (c : Nat) : Nat := P.func.gradTarget c

/-- `sleqp_problem_cons_val`, problem.c:549-584 -/
def valTarget (P : CapProblem) (c : Nat) : Nat := P.func.valTarget (if P.lin = 0 then c else P.genVal)

/-- `sleqp_problem_cons_jac`, problem.c:586-604 -/
def jacTarget (P : CapProblem) (c : Nat) : Nat := P.func.jacTarget (if P.lin = 0 then c else P.genJac)

/-- number of constraints, general ones first -/
def cons (P : CapProblem) : Nat := P.func.cons + P.lin

end CapProblem

/-- capacities of the gradient, the constraint values and the Jacobian of an iterate -/
structure CapIterate where
  grad : Nat
  val : Nat
  jac : Nat
  deriving DecidableEq

/-- `sleqp_iterate_create`, iterate.c:58-96 -/
def CapIterate.create : CapIterate := ⟨0, 0, 0⟩

/-- `sleqp_iterate_reserve`, iterate.c:566-604, as called by `sleqp_problem_solver_set_func_value`, problem_solver/step.c:5-40, whenever the function is
set to a point -/
def CapIterate.reserve (d : Decl) (P : CapProblem) (it : CapIterate) : CapProblem × CapIterate :=
  let e := (P.nonzeros d).2
  ((P.nonzeros d).1, ⟨max it.grad (e.grad.getD P.func.vars), max it.val (e.val.getD P.cons), max it.jac (e.jac.getD (P.func.vars * P.cons))⟩)

/-- The function of the restoration problem, restoration.c:306-344: the original problem and the capacities for its constraint values and Jacobian -/
structure CapRestoration where
  prob : CapProblem
  val : Nat
  jac : Nat
  deriving DecidableEq

namespace CapRestoration

/-- `sleqp_restoration_func_init`, restoration.c:412-437: values with `valNnz` and a Jacobian with `jacNnz` nonzeros are copied -/
def init (P : CapProblem) (valNnz jacNnz : Nat) : CapRestoration := ⟨P, valNnz, jacNnz⟩

/-- `restoration_func_nonzeros`, restoration.c:92-134 -/
def nonzeros (d : Decl) (R : CapRestoration) : CapRestoration :=
  ⟨(R.prob.nonzeros d).1, resv R.val (R.prob.nonzeros d).2.val, resv R.jac (R.prob.nonzeros d).2.jac⟩

/-- `compute_cons_val`, restoration.c:136-146 -/
def valTarget (R : CapRestoration) : Nat := R.prob.valTarget R.val

/-- `compute_cons_jac`, restoration.c:168-179 -/
def jacTarget (R : CapRestoration) : Nat := R.prob.jacTarget R.jac

end CapRestoration

/-- `fill_optimization_iterate`, solver/phase.c:98-144: after the restoration phase the gradient is evaluated at the new point into the iterate of the
optimization phase; capacity of the vector the callback gets -/
def fillOptimizationGrad (P : CapProblem) (it : CapIterate) : Nat := P.gradTarget it.grad

/-- `dyn_func_eval`, dyn.c:87-141, for the constraint values: the callback gets the vector of the previous evaluation (`none`: it stores outside the vector or
out of order) -/
def dynEvalCons {V : Type*} (callback : Vec V → Option (Vec V)) (consVal : Vec V) : Option (Vec V) := callback consVal

/-- `sleqp_func_cons_val`, func.c:174-202, for other functions: the vector is cleared first -/
def funcEvalCons {V : Type*} (callback : Vec V → Option (Vec V)) (consVal : Vec V) : Option (Vec V) := callback ⟨consVal.dim, consVal.cap, []⟩

end Sleqp

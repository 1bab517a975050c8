import Verif.Model.Feas
import Verif.Model.Mat

/-!
Model of `deriv_check.c`: the check of derivatives by finite differences which `sleqp_solver_solve` makes
before its first iteration if the setting `deriv_check` asks for it.

The problem is given by the values its callbacks return for the point last set; log messages, timers and
`sleqp_iterate_reserve` (capacities of the vectors handed to callbacks) are left out.  Work vectors are
cleared or overwritten before every use and hence taken as created.  A failed assertion, a failed callback
and a division by zero are `none`.
-/

namespace Sleqp
variable {K : Type*} [Field K] [LinearOrder K]

/-- `SLEQP_DERIV_CHECK`, pub_types.h:90-102: one field for each bit -/
structure DcFlags where
  firstObj : Bool
  firstCons : Bool
  secondSimple : Bool
  secondObj : Bool
  secondCons : Bool
deriving DecidableEq

/-- `flags == SLEQP_DERIV_CHECK_SKIP` -/
def DcFlags.skip (f : DcFlags) : Bool :=
  !f.firstObj && !f.firstCons && !f.secondSimple && !f.secondObj && !f.secondCons

/-- the problem as seen by the checker, and its settings; the first argument of the callbacks is the point
last set, the last one the vector or matrix overwritten -/
structure DcEnv (K : Type*) where
  numVars : Nat
  numCons : Nat
  /-- whether `sleqp_problem_set_value` rejects the point -/
  rejects : Vec K → Bool
  obj : Vec K → K
  grad : Vec K → Vec K → Option (Vec K)
  cons : Vec K → Vec K → Option (Vec K)
  jac : Vec K → Mat K → Option (Mat K)
  /-- `sleqp_problem_hess_prod`: point, direction, multipliers, product -/
  hess : Vec K → Vec K → Vec K → Vec K → Option (Vec K)
  perturbation : K
  tol : K
  zeroEps : K

/-- state of the checker and of the function -/
structure DcState (K : Type*) where
  /-- point last passed to the function -/
  cur : Vec K
  /-- all points passed to the function, the oldest first -/
  points : List (Vec K)
  /-- `check_iterate` -/
  check : Iterate K
  /-- `valid_deriv` -/
  valid : Bool

/-- return codes of `sleqp_deriv_check_perform`: `SLEQP_OKAY`, `SLEQP_INVALID_DERIV` and
`SLEQP_INTERNAL_ERROR` -/
inductive DcOut where
  | ok
  | invalid
  | internal
deriving DecidableEq

/-- `sleqp_problem_set_value` -/
def DcState.setValue (s : DcState K) (x : Vec K) : DcState K := { s with cur := x, points := s.points ++ [x] }

/-- `get_perturbation`, deriv_check.c:87-106 -/
def dcPerturbation (e : DcEnv K) (x : Vec K) (j : Nat) : K := max |x.value j| 1 * e.perturbation

/-- `create_unit_direction`, deriv_check.c:108-116, with `v` for `1.` -/
def dcUnit (n j : Nat) (v : K) : Option (Vec K) := ((Vec.create n 1 : Vec K).clear).push j v

/-- `create_check_iterate`, deriv_check.c:227-248, with `create_perturbed_unit_direction`,
deriv_check.c:118-133 -/
def dcPoint (e : DcEnv K) (x : Vec K) (j : Nat) (out : Vec K) : Option (Vec K) :=
  (dcUnit e.numVars j (dcPerturbation e x j)).bind fun u => x.addScaled u 1 1 e.zeroEps out

/-- body of the loop in `compute_hessian_cons_products` -/
def dcConsStep (e : DcEnv K) (cur u func : Vec K) (m : Mat K) (k : Nat) : Option (Mat K) :=
  (dcUnit e.numCons k 1).bind fun mu => (e.hess cur u mu (Vec.create e.numVars 0)).bind fun p =>
    (p.addScaled func 1 (-1) e.zeroEps (Vec.create e.numVars 0)).bind fun d =>
      ((m.reserve (m.nnz + d.nnz)).pushCol k).bind fun m =>
        if m.ptr k = m.ptr (k + 1) ∧ d.dim = m.numRows then m.pushAll k d.ents else none

/-- `compute_hessian_cons_products`, deriv_check.c:135-184: column `k` of the result is the product of the
unit vector with the Hessian of constraint `k` -/
def dcConsProducts (e : DcEnv K) (cur func : Vec K) (j : Nat) : Option (Mat K) :=
  (dcUnit e.numVars j 1).bind fun u =>
    ((List.range e.numCons).foldlM (dcConsStep e cur u func)
      (Mat.create e.numVars e.numCons 0 (fun _ => 0) (fun _ => 0)).clear).bind fun m => if m.isValid then some m else none

/-- `hessian_prod_func`, `hessian_cons_prods` and `hessian_prod` -/
structure DcHess (K : Type*) where
  func : Vec K
  cons : Mat K
  lagr : Vec K

/-- `compute_hessian_products`, deriv_check.c:186-225 -/
def dcHessProducts (e : DcEnv K) (f : DcFlags) (it : Iterate K) (cur : Vec K) (j : Nat) : Option (DcHess K) :=
  (dcUnit e.numVars j 1).bind fun u =>
    (if f.secondCons || f.secondObj then e.hess cur u (Vec.create e.numCons 1).clear (Vec.create e.numVars 0)
      else some (Vec.create e.numVars 0)).bind fun func =>
    (if f.secondCons then dcConsProducts e cur func j
      else some (Mat.create e.numVars e.numCons 0 (fun _ => 0) (fun _ => 0))).bind fun cons =>
    (if f.secondSimple then e.hess cur u it.consDual (Vec.create e.numVars 0)
      else some (Vec.create e.numVars 0)).map fun lagr => ⟨func, cons, lagr⟩

/-- `eval_at_check_iterate`, deriv_check.c:250-294 -/
def dcEval (e : DcEnv K) (f : DcFlags) (cur : Vec K) (ck : Iterate K) : Option (Iterate K) :=
  (if f.secondObj || f.secondSimple then e.grad cur ck.objGrad else some ck.objGrad).bind fun g =>
    (if f.firstCons then e.cons cur ck.consVal else some ck.consVal).bind fun c =>
    (if f.secondCons || f.secondSimple then e.jac cur ck.consJac else some ck.consJac).map fun J =>
      { ck with objVal := if f.firstObj then e.obj cur else ck.objVal, objGrad := g, consVal := c, consJac := J }

/-- `check_deriv_func_first_order`, deriv_check.c:296-328: whether no difference is found -/
def dcFirstObj (e : DcEnv K) (it ck : Iterate K) (j : Nat) (h : K) : Bool :=
  isEq (it.objGrad.value j) ((ck.objVal - it.objVal) / h) e.tol

/-- `check_deriv_cons_first_order`, deriv_check.c:330-374 -/
def dcFirstCons (e : DcEnv K) (it ck : Iterate K) (j : Nat) (h : K) : Bool :=
  (List.range e.numCons).all fun i =>
    isEq (it.consJac.value i j) ((ck.consVal.value i - it.consVal.value i) / h) e.tol

/-- `check_deriv_func_second_order`, deriv_check.c:376-428 -/
def dcSecondObj (e : DcEnv K) (it ck : Iterate K) (func : Vec K) (h : K) : Option Bool :=
  (it.objGrad.addScaled ck.objGrad (-1) 1 0 (Vec.create e.numVars 0)).bind fun d =>
    (List.range e.numVars).foldlM (fun ok k => (dcUnit e.numVars k 1).bind fun u => (u.dot func).map fun v =>
      ok && isEq v ((d.scale (1 / h)).value k) e.tol) true

/-- `sleqp_mat_col`, sparse/mat.c:390-408 -/
def dcCol (m : Mat K) (j : Nat) (v : Vec K) : Option (Vec K) :=
  if m.numRows = v.dim ∧ j < m.numCols then ((v.reserve (m.col j).length).clear).pushAll (m.col j) else none

/-- body of the loop in `check_deriv_cons_second_order` -/
def dcSecondConsStep (e : DcEnv K) (it ck : Iterate K) (prods : Mat K) (h : K) (ok : Bool) (i : Nat) : Option Bool :=
  (dcCol prods i (Vec.create e.numVars 0)).bind fun p => (dcUnit e.numCons i 1).bind fun mu =>
    (it.consJac.multVecTrans mu e.zeroEps (Vec.create e.numVars 0)).bind fun r =>
    (ck.consJac.multVecTrans mu e.zeroEps (Vec.create e.numVars 0)).bind fun r' =>
    (r'.addScaled r 1 (-1) e.zeroEps (Vec.create e.numVars 0)).map fun d =>
      ok && (List.range e.numVars).all fun k => isEq (p.value k) ((d.scale (1 / h)).value k) e.tol

/-- `check_deriv_cons_second_order`, deriv_check.c:430-506 -/
def dcSecondCons (e : DcEnv K) (it ck : Iterate K) (prods : Mat K) (h : K) : Option Bool :=
  (List.range e.numCons).foldlM (dcSecondConsStep e it ck prods h) true

/-- `compute_combined_cons_grad`, deriv_check.c:508-530 -/
def dcCombined (e : DcEnv K) (mu : Vec K) (it : Iterate K) : Option (Vec K) :=
  (it.consJac.multVecTrans mu e.zeroEps (Vec.create e.numVars 0)).bind fun p =>
    it.objGrad.addScaled p 1 1 e.zeroEps (Vec.create e.numVars 0)

/-- `check_deriv_simple_second_order`, deriv_check.c:532-599; the perturbed point is computed once more -/
def dcSecondSimple (e : DcEnv K) (it ck : Iterate K) (lagr : Vec K) (j : Nat) : Option (Bool × Iterate K) :=
  (dcCombined e it.consDual it).bind fun a => (dcPoint e it.primal j ck.primal).bind fun x =>
    (dcCombined e it.consDual { ck with primal := x }).bind fun b =>
    (a.addScaled b (-1) 1 0 (Vec.create e.numVars 0)).map fun d =>
      ((List.range e.numVars).all fun k =>
        isEq (lagr.value k) ((d.scale (1 / dcPerturbation e it.primal j)).value k) e.tol, { ck with primal := x })

/-- `check_deriv`, deriv_check.c:601-639: whether no difference is found, and the iterate `check_iterate` -/
def dcCheck (e : DcEnv K) (f : DcFlags) (it ck : Iterate K) (p : DcHess K) (j : Nat) (h : K) : Option (Bool × Iterate K) :=
  if h = 0 then none
  else
    (if f.secondObj then dcSecondObj e it ck p.func h else some true).bind fun b3 =>
    (if f.secondCons then dcSecondCons e it ck p.cons h else some true).bind fun b4 =>
    (if f.secondSimple then dcSecondSimple e it ck p.lagr j else some (true, ck)).map fun b5 =>
      ((!f.firstObj || dcFirstObj e it ck j h) && (!f.firstCons || dcFirstCons e it ck j h) && b3 && b4 && b5.1, b5.2)

/-- `restore_iterate`, deriv_check.c:50-69: the new state, and whether the function rejects the point -/
def dcRestore (e : DcEnv K) (it : Iterate K) (s : DcState K) : DcState K × Bool :=
  (s.setValue it.primal, e.rejects it.primal)

/-- `eval_and_check_deriv`, deriv_check.c:641-671, with `set_check_iterate`, deriv_check.c:71-85 -/
def dcVar (e : DcEnv K) (f : DcFlags) (it : Iterate K) (s : DcState K) (j : Nat) : Option (DcState K × Bool) :=
  (dcPoint e it.primal j s.check.primal).bind fun x =>
    let s : DcState K := ({ s with check := { s.check with primal := x } } : DcState K).setValue x
    if e.rejects x then some (dcRestore e it s)
    else
      (dcHessProducts e f it s.cur j).bind fun p => (dcEval e f s.cur s.check).bind fun ck =>
        (dcCheck e f it ck p j (dcPerturbation e it.primal j)).map fun r =>
          dcRestore e it { s with check := r.2, valid := s.valid && r.1 }

/-- loop body of `sleqp_deriv_check_perform`: an error ends the loop -/
def dcLoop (e : DcEnv K) (f : DcFlags) (it : Iterate K) (t : DcState K × Bool) (j : Nat) : Option (DcState K × Bool) :=
  if t.2 then some t else dcVar e f it t.1 j

/-- `sleqp_deriv_check_perform`, deriv_check.c:742-792 -/
def dcPerform (e : DcEnv K) (f : DcFlags) (it : Iterate K) (s : DcState K) : Option (DcOut × DcState K) :=
  if f.skip then some (.ok, s)
  else
    ((List.range e.numVars).foldlM (dcLoop e f it) ({ s with valid := true }, false)).map fun t =>
      (if t.2 then .internal else if t.1.valid then .ok else .invalid, t.1)

end Sleqp

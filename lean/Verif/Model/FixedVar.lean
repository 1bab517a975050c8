import Verif.Model.Lsq
import Verif.Model.Mat
import Verif.Model.Preprocessing

/-!
Model of `/repo/src/main/preprocessor/fixed_var_func.c`: functions with some variables fixed, and of the parts of
`/repo/src/main/func.c` used to call them.

User callbacks are parameters as in `Verif.Model.Lsq`: given a point and a cleared destination they return it filled, or
`none` if an assertion fails while filling it. Timers, the final validity checks and error codes are not modelled.
The dynamic variant (`sleqp_fixed_var_dyn_func_create`) differs only by passing `eval`, error bound and weights on
unchanged and is not modelled separately.
-/

namespace Sleqp
variable {P K : Type*}

/-- `SleqpFuncCallbacks`, pub_func.h, with dimensions and the counts reported by `nonzeros` (`none` = `SLEQP_NONE`). -/
structure FuncUser (P K : Type*) where
  numVars : Nat
  numCons : Nat
  objVal : P → Option K
  objGrad : P → Vec K → Option (Vec K)
  consVal : P → Vec K → Option (Vec K)
  consJac : P → Mat K → Option (Mat K)
  hessProd : P → Vec K → Vec K → Vec K → Option (Vec K)
  gradNnz : Option Nat
  consValNnz : Option Nat
  consJacNnz : Option Nat
  hessProdNnz : Option Nat

namespace FuncUser

/-- `sleqp_func_obj_grad`, func.c:149-172. -/
def callObjGrad (u : FuncUser P K) (x : P) (dest : Vec K) : Option (Vec K) := u.objGrad x dest.clear

/-- `sleqp_func_cons_val`, func.c:174-202. -/
def callConsVal (u : FuncUser P K) (x : P) (dest : Vec K) : Option (Vec K) :=
  if u.numCons ≠ 0 then u.consVal x dest.clear else some dest.clear

/-- `sleqp_func_cons_jac`, func.c:204-232. -/
def callConsJac (u : FuncUser P K) (x : P) (dest : Mat K) : Option (Mat K) :=
  if u.numCons ≠ 0 then u.consJac x dest.clear else some dest.clear

/-- `sleqp_func_hess_prod`, func.c:373-408; the asserts on dimensions are the guard. -/
def callHessProd (u : FuncUser P K) (x : P) (direction duals product : Vec K) : Option (Vec K) :=
  if u.numVars = direction.dim ∧ u.numVars = product.dim ∧ u.numCons = duals.dim then
    u.hessProd x direction duals product.clear
  else none

end FuncUser

/-- `fixed_var_func_set`, preprocessor/fixed_var_func.c:30-49: the point handed to the original function; `values` is
created for all entries, `create_fixed_var_func_data`, preprocessor/fixed_var_func.c:377-442. -/
def fixedPoint (numVars : Nat) (fx : List (Nat × K)) (p : Vec K) : Option (Vec K) :=
  Vec.mergeEntries p (Vec.create numVars numVars) fx

/-- the vector `grad` after `fixed_var_func_nonzeros`, preprocessor/fixed_var_func.c:51-102. -/
def FuncUser.gradCache (u : FuncUser P K) : Vec K :=
  (Vec.create u.numVars u.numVars).reserve (u.gradNnz.getD u.numVars)

/-- the matrix `jacobian` after `fixed_var_func_nonzeros`, preprocessor/fixed_var_func.c:51-102; `row`, `val` are the
uninitialised contents. -/
def FuncUser.jacCache (u : FuncUser P K) (row : Nat → Nat) (val : Nat → K) : Mat K :=
  (Mat.create u.numCons u.numVars 0 row val).reserve (u.consJacNnz.getD (u.numVars * u.numCons))

/-- the matrix `jacobian` after `fixed_lsq_func_nonzeros`, preprocessor/fixed_var_func.c:276-307: not reserved if the
count is `SLEQP_NONE`. -/
def FuncUser.jacCacheLsq (u : FuncUser P K) (row : Nat → Nat) (val : Nat → K) : Mat K :=
  match u.consJacNnz with
  | some n => (Mat.create u.numCons u.numVars 0 row val).reserve n
  | none => Mat.create u.numCons u.numVars 0 row val

/-- `fixed_var_cons_jac`, preprocessor/fixed_var_func.c:135-148, with the matrix `jacobian`. -/
def fixedConsJac (u : FuncUser (Vec K) K) (fx : List (Nat × K)) (jacobian : Mat K) (p : Vec K) (dest : Mat K) :
    Option (Mat K) :=
  (fixedPoint u.numVars fx p).bind fun x =>
    (u.callConsJac x jacobian).bind fun j => j.removeCols dest (fx.map Prod.fst)

/-- `sleqp_fixed_var_func_create`, preprocessor/fixed_var_func.c:444-498, with its callbacks
preprocessor/fixed_var_func.c:30-181. -/
def fixedFunc (u : FuncUser (Vec K) K) (fx : List (Nat × K)) (row : Nat → Nat) (val : Nat → K) : FuncUser (Vec K) K where
  numVars := u.numVars - fx.length
  numCons := u.numCons
  objVal p := (fixedPoint u.numVars fx p).bind u.objVal
  objGrad p dest := (fixedPoint u.numVars fx p).bind fun x =>
    (u.callObjGrad x u.gradCache).bind fun g => g.removeEntries dest (fx.map Prod.fst)
  consVal p dest := (fixedPoint u.numVars fx p).bind fun x => u.callConsVal x dest
  consJac p dest := fixedConsJac u fx (u.jacCache row val) p dest
  hessProd p d y dest := (fixedPoint u.numVars fx p).bind fun x =>
    (d.addZeroEntries (Vec.create u.numVars u.numVars) (fx.map Prod.fst)).bind fun d' =>
      (u.callHessProd x d' y (Vec.create u.numVars u.numVars)).bind fun r => r.removeEntries dest (fx.map Prod.fst)
  gradNnz := u.gradNnz.map fun n => min (u.numVars - fx.length) n
  consValNnz := u.consValNnz
  consJacNnz := u.consJacNnz
  hessProdNnz := u.hessProdNnz.map fun n => min (u.numVars - fx.length) n

/-- `sleqp_fixed_var_lsq_func_create`, preprocessor/fixed_var_func.c:500-551, with the least-squares callbacks
preprocessor/fixed_var_func.c:249-331. The residual is fetched from the wrapped function
(`sleqp_lsq_func_residuals`, lsq.c:432-448), which copies it from its own vector of reserved size. -/
def fixedLsq [Field K] [LinearOrder K] (u : LsqUser (Vec K) K) (fx : List (Nat × K)) : LsqUser (Vec K) K where
  numVars := u.numVars - fx.length
  numRes := u.numRes
  resid p dest := (fixedPoint u.numVars fx p).bind fun x =>
    (u.resid x (Lsq.reserveOpt (Vec.create u.numRes 0) u.residNnz).clear).bind fun r => r.copy dest
  fwd p d dest := (fixedPoint u.numVars fx p).bind fun x =>
    (d.addZeroEntries (Vec.create u.numVars u.numVars) (fx.map Prod.fst)).bind fun d' => u.fwd x d' dest.clear
  adj p y dest := (fixedPoint u.numVars fx p).bind fun x =>
    (u.adj x y (Vec.create u.numVars u.numVars).clear).bind fun r => r.removeEntries dest (fx.map Prod.fst)
  residNnz := u.residNnz
  fwdNnz := u.fwdNnz
  adjNnz := u.adjNnz.map fun n => min (u.numVars - fx.length) n

end Sleqp

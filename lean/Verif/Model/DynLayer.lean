import Verif.Model.Dyn
import Verif.Model.Scale
import Verif.Model.FixedVar

/-!
Model of the layers around dynamic functions: scaling (`/repo/src/main/problem_scaling.c`) and fixed variables
(`/repo/src/main/preprocessor/fixed_var_func.c`). The function seen by the solver is itself a dynamic function (`/repo/src/main/dyn.c`) with stored
values and flags, whose callbacks call the function inside.
-/

namespace Sleqp

variable {K P V W P' V' W' : Type*} [Field K] [LinearOrder K]

/-- How a layer converts points and weights on the way in, and values on the way out. -/
structure DynLayer (K P V W P' V' W' : Type*) where
  point : P' → P
  obj : K → K
  cons : V → V'
  objWeight : Ext K → Ext K
  consWeights : W' → W

/-- A dynamic function inside a layer: `outer` is the data of the function the solver sees, `inner` that of the function it calls. -/
structure DynStack (K P V W P' V' W' : Type*) where
  outer : Dyn K P' V' W'
  inner : Dyn K P V W

namespace DynStack
variable (L : DynLayer K P V W P' V' W') (U : Nat → DynUser K P W → DynEval K V) (numCons : Nat)

/-- `dyn_func_eval`, dyn.c:87-141, of the outer function. Its callback is `fixed_dyn_func_eval`, preprocessor/fixed_var_func.c:331-343, or
`scaled_dyn_func_eval`, problem_scaling.c:275-292, which calls `sleqp_dyn_func_eval`, dyn.c:275-290, of the inner one and converts the values. -/
def eval (s : DynStack K P V W P' V' W') : Option (Bool × DynStack K P V W P' V' W') :=
  if numCons ≠ 0 ∧ hasFlag s.outer.flags HAS_CONS_WEIGHTS = false then none
  else if hasFlag s.outer.flags HAS_OBJ_WEIGHT = false then none
  else if hasFlag s.outer.flags HAS_ERROR_BOUND = false then none
  else if hasFlag s.outer.flags HAS_VALUES then
    if s.outer.error = extNone then none else some (true, s)
  else
    (s.inner.eval U numCons).map fun r =>
      if !r.1 then (false, ⟨{ s.outer with error := extNone, calls := s.outer.calls + 1 }, r.2⟩)
      else
        let o1 := { s.outer with objVal := L.obj r.2.objVal, consVal := L.cons r.2.consVal, error := r.2.error, calls := s.outer.calls + 1 }
        if o1.error = extNone then (false, ⟨o1, r.2⟩)
        else if Ext.lt o1.error (.fin 0) then (false, ⟨o1, r.2⟩)
        else if Ext.gt o1.error o1.errorBound then (false, ⟨o1, r.2⟩)
        else (true, ⟨{ o1 with flags := o1.flags ||| HAS_VALUES }, r.2⟩)

/-- A call on the outer function: `dyn_func_set_value`, dyn.c:32-50, `sleqp_dyn_func_set_error_bound`, dyn.c:292-309,
`sleqp_dyn_func_set_obj_weight`, dyn.c:354-370, `sleqp_dyn_func_set_cons_weights`, dyn.c:372-393 (which calls nothing if there are no constraints). The
callbacks are those of preprocessor/fixed_var_func.c:345-373 and problem_scaling.c:294-339, for points `fixed_var_func_set`,
preprocessor/fixed_var_func.c:30-49, and `scaled_func_set_value`, problem_scaling.c:33-67. `t` tells how the user's callback fares. -/
def apply (s : DynStack K P V W P' V' W') : DynOp K P' W' → Option (DynStack K P V W P' V' W')
  | .setValue x t => some ⟨s.outer.setValue x t, s.inner.setValue (L.point x) t⟩
  | .setErrorBound b t => some ⟨s.outer.setErrorBound b t, s.inner.setErrorBound b t⟩
  | .setObjWeight w t => some ⟨s.outer.setObjWeight w t, s.inner.setObjWeight (L.objWeight w) t⟩
  | .setConsWeights w t =>
    some ⟨s.outer.setConsWeights numCons w t, if numCons ≠ 0 then s.inner.setConsWeights numCons (L.consWeights w) t else s.inner⟩
  | .eval => (s.eval L U numCons).map Prod.snd

/-- a history of calls -/
def run (s : DynStack K P V W P' V' W') (ops : List (DynOp K P' W')) : Option (DynStack K P V W P' V' W') :=
  ops.foldlM (fun (s : DynStack K P V W P' V' W') op => s.apply L U numCons op) s

/-- a layer newly created around a newly created function, dyn.c:234-273 -/
def create (c' : V') (u' : DynUser K P' W') (c : V) (u : DynUser K P W) : DynStack K P V W P' V' W' := ⟨Dyn.create c' u', Dyn.create c u⟩

end DynStack

/-- the layer fixing variables: `fixed_var_func_set`, preprocessor/fixed_var_func.c:30-49, `sleqp_fixed_var_dyn_func_create`,
preprocessor/fixed_var_func.c:553-607 -/
def fixedDynLayer (numVars : Nat) (fx : List (Nat × K)) : DynLayer K (Vec K) (Vec K) (Nat → K) (Vec K) (Vec K) (Nat → K) where
  point p := (fixedPoint numVars fx p).getD p
  obj v := v
  cons c := c
  objWeight w := w
  consWeights w := w

/-- `sleqp_scale_obj_weight`, scale.c:268-272, of any double: infinities and NaN stay what they are -/
def Scaling.scaleObjWeightExt (s : Scaling) : Ext K → Ext K
  | .fin x => .fin (s.scaleObjWeight x)
  | x => x

/-- the layer scaling a dynamic function: `scaled_func_set_value`, problem_scaling.c:33-67, `dyn_func_create`, problem_scaling.c:415-445; weights beyond
the number of constraints are not defined and taken as zero -/
def scaledDynLayer (s : Scaling) (cache : Vec K) : DynLayer K (Vec K) (Vec K) (Nat → K) (Vec K) (Vec K) (Nat → K) where
  point p := (s.funcPoint cache p).getD p
  obj := s.scaleObjVal
  cons c := (s.scaleConsVal c).getD c
  objWeight := s.scaleObjWeightExt
  consWeights w i := ((s.scaleConsWeights w)[i]?).getD 0

end Sleqp

import Verif.Model.Ext

/-!
Model of `/repo/src/main/dyn.c`: functions evaluated with a controllable error.

Points, constraint values and constraint weights are of arbitrary types `P`, `V`, `W`.
The user's function is an oracle `U`: what an evaluation delivers may depend on the
number of the call and on everything the user was told (`DynUser`).  `error` and
`error_bound` are doubles including NaN and infinities (`Ext`).
-/

namespace Sleqp

variable {K P V W : Type*} [Field K] [LinearOrder K]

/-- `FLAGS`, dyn.c:8-14. -/
def HAS_OBJ_WEIGHT : BitVec 32 := 1#32
def HAS_CONS_WEIGHTS : BitVec 32 := 2#32
def HAS_ERROR_BOUND : BitVec 32 := 4#32
def HAS_VALUES : BitVec 32 := 8#32

/-- What the user's function was told last. -/
structure DynUser (K P W : Type*) where
  point : P
  bound : Ext K
  objWeight : Ext K
  consWeights : W

/-- What the `eval` callback delivers: return code, objective, constraint values,
reported error. -/
structure DynEval (K V : Type*) where
  ok : Bool
  objVal : K
  consVal : V
  error : Ext K

/-- `DynFuncData`, dyn.c:16-26; `user` and `calls` (number of evaluations the user was
asked for) describe the user's side. -/
structure Dyn (K P V W : Type*) where
  flags : BitVec 32
  objVal : K
  consVal : V
  errorBound : Ext K
  error : Ext K
  user : DynUser K P W
  calls : Nat

/-- `flags & mask` as a truth value -/
def hasFlag (flags mask : BitVec 32) : Bool := (flags &&& mask) != 0#32

/-- `SLEQP_NONE` as a double. -/
def extNone : Ext K := .fin (-1)

/-- `sleqp_dyn_func_create`, dyn.c:234-273. -/
def Dyn.create (consVal : V) (user : DynUser K P W) : Dyn K P V W :=
  { flags := 0#32, objVal := 0, consVal := consVal, errorBound := .fin 0, error := .fin 0
    user := user, calls := 0 }

/-- Outcome of a setter callback: success, or failure with or without the user having
taken over the new value. -/
inductive Took
  | ok | failKept | failTook
  deriving DecidableEq

def Took.success : Took → Bool
  | .ok => true
  | _ => false

/-- the user's view after a setter callback -/
def Took.upd {α : Type*} (t : Took) (old new : α) : α :=
  match t with
  | .failKept => old
  | _ => new

/-- `dyn_func_set_value`, dyn.c:32-50. -/
def Dyn.setValue (s : Dyn K P V W) (x : P) (t : Took) : Dyn K P V W :=
  { s with
    flags := s.flags &&& ~~~HAS_VALUES
    error := extNone
    user := t.upd s.user { s.user with point := x } }

/-- `dyn_func_eval`, dyn.c:87-141: `none` is a failed assert, the flag is the return code.
The first three asserts exist in debug builds only. -/
def Dyn.eval (U : Nat → DynUser K P W → DynEval K V) (numCons : Nat) (s : Dyn K P V W) :
    Option (Bool × Dyn K P V W) :=
  if numCons ≠ 0 ∧ hasFlag s.flags HAS_CONS_WEIGHTS = false then none
  else if hasFlag s.flags HAS_OBJ_WEIGHT = false then none
  else if hasFlag s.flags HAS_ERROR_BOUND = false then none
  else if hasFlag s.flags HAS_VALUES then
    if s.error = extNone then none else some (true, s)
  else
    let r := U s.calls s.user
    let s1 := { s with objVal := r.objVal, consVal := r.consVal, error := r.error
                       calls := s.calls + 1 }
    if !r.ok then some (false, s1)
    else if s1.error = extNone then some (false, s1)
    else if Ext.lt s1.error (.fin 0) then some (false, s1)
    else if Ext.gt s1.error s1.errorBound then some (false, s1)
    else some (true, { s1 with flags := s1.flags ||| HAS_VALUES })

/-- `sleqp_dyn_func_set_error_bound`, dyn.c:292-309. -/
def Dyn.setErrorBound (s : Dyn K P V W) (b : Ext K) (t : Took) : Dyn K P V W :=
  { s with
    flags := (s.flags ||| HAS_ERROR_BOUND) &&& ~~~HAS_VALUES
    errorBound := b
    user := t.upd s.user { s.user with bound := b } }

/-- `sleqp_dyn_func_set_obj_weight`, dyn.c:354-370; the mask is `~(1 << HAS_VALUES)`, as in the
code. -/
def Dyn.setObjWeight (s : Dyn K P V W) (w : Ext K) (t : Took) : Dyn K P V W :=
  { s with
    flags := (s.flags ||| HAS_OBJ_WEIGHT) &&& ~~~(1#32 <<< HAS_VALUES)
    user := t.upd s.user { s.user with objWeight := w } }

/-- `sleqp_dyn_func_set_cons_weights`, dyn.c:372-393. -/
def Dyn.setConsWeights (numCons : Nat) (s : Dyn K P V W) (w : W) (t : Took) : Dyn K P V W :=
  { s with
    flags := (s.flags ||| HAS_CONS_WEIGHTS) &&& ~~~(1#32 <<< HAS_VALUES)
    user := if numCons ≠ 0 then t.upd s.user { s.user with consWeights := w } else s.user }

/-- `sleqp_dyn_func_error_estimate`, dyn.c:335-352. -/
def Dyn.errorEstimate (s : Dyn K P V W) : Ext K :=
  if s.error ≠ extNone then s.error else s.errorBound

/-- A call on a dynamic function. `eval` stands for any of the calls evaluating objective
or constraints (`dyn_func_obj_val`, dyn.c:143-153, `dyn_func_cons_val`, dyn.c:167-177,
`sleqp_dyn_func_eval`, dyn.c:275-290): these return the stored values. -/
inductive DynOp (K P W : Type*)
  | setValue (x : P) (t : Took)
  | setErrorBound (b : Ext K) (t : Took)
  | setObjWeight (w : Ext K) (t : Took)
  | setConsWeights (w : W) (t : Took)
  | eval

/-- one call -/
def DynOp.apply (U : Nat → DynUser K P W → DynEval K V) (numCons : Nat) (s : Dyn K P V W) :
    DynOp K P W → Option (Dyn K P V W)
  | .setValue x t => some (s.setValue x t)
  | .setErrorBound b t => some (s.setErrorBound b t)
  | .setObjWeight w t => some (s.setObjWeight w t)
  | .setConsWeights w t => some (s.setConsWeights numCons w t)
  | .eval => (s.eval U numCons).map Prod.snd

/-- a history of calls -/
def Dyn.run (U : Nat → DynUser K P W → DynEval K V) (numCons : Nat) (s : Dyn K P V W)
    (ops : List (DynOp K P W)) : Option (Dyn K P V W) :=
  ops.foldlM (fun s op => op.apply U numCons s) s

end Sleqp

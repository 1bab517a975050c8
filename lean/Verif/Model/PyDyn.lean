import Verif.Model.Python

/-!
Model of `/repo/bindings/python/src/extension/dyn.pxi`: dynamic functions written in Python, called through `/repo/src/main/dyn.c`.

An exception raised in Python, and an error code of the library, is the outcome `err`; a failed `assert` of the library is `undef` (see `MexRes`).
The Python function is an oracle: whether a call raises an exception, and what `eval` returns, may depend on all calls it has received.
Objective values and errors are doubles including NaN and infinities (`Ext`), constraint values are finite. That values are not asked for again
at the same point is the subject of `Model/Dyn`; here each evaluation reaches the Python function.
-/

namespace Sleqp

/-- A call received by the Python function; the weights of the constraints arrive as an array. -/
inductive PyTold (K : Type*) where
  | errorBound (b : K)
  | objWeight (w : K)
  | consWeights (ws : List K)
  | eval
  deriving DecidableEq

/-- An element of the tuple (or list) returned by `eval`. -/
inductive PyItem (K : Type*) where
  | num (x : Ext K)
  | arr (a : List K)
  | none
  /-- an object which is neither of these: a string, a list, an array with two dimensions -/
  | other

/-- What `eval` returns. -/
inductive PyDynResult (K : Type*) where
  | none
  | items (l : List (PyItem K))
  /-- an object which cannot be indexed -/
  | other

/-- The Python function. -/
structure PyDynFunc (K : Type*) where
  raises : List (PyTold K) → PyTold K → Bool
  result : List (PyTold K) → PyDynResult K

/-- `DynFuncData`, dyn.c:16-26, without the flags, and the calls the Python function has received. -/
structure PyDyn (K : Type*) where
  numCons : Nat
  told : List (PyTold K)
  objVal : Ext K
  consVal : Vec K
  bound : K
  error : Ext K

section
variable {K : Type*} [Field K] [LinearOrder K]

/-- the conversion of an object to a double, bindings/python/src/extension/dyn.pxi:17-18; NumPy converts arrays with one element -/
def PyItem.toDouble : PyItem K → MexRes (Ext K)
  | .num x => .ok x
  | .arr [x] => .ok (.fin x)
  | _ => .err

/-- the argument of `array_to_sleqp_sparse_vec`, bindings/python/src/extension/sparse.pxi:28-29: a NumPy array, or `None`, which Cython lets
pass. (An array with two dimensions passes here and fails the assertion in line 36, with the same outcome.) -/
def PyItem.toArray : PyItem K → MexRes (Option (List K))
  | .arr a => .ok (some a)
  | .none => .ok Option.none
  | _ => .err

/-- `result[i]` -/
def pyItem (l : List (PyItem K)) (i : Nat) : MexRes (PyItem K) :=
  match l[i]? with
  | some x => .ok x
  | none => .err

/-- `sleqp_dyn_eval`, bindings/python/src/extension/dyn.pxi:3-26: objective value, error and constraint values; `v` is the vector of the
constraint values. -/
def pyDynResult (numCons : Nat) (v : Vec K) : PyDynResult K → MexRes (Ext K × Ext K × Vec K)
  | .none => .err
  | .other => .err
  | .items l =>
    ((pyItem l 0).bind PyItem.toDouble).bind fun f =>
    ((pyItem l 1).bind PyItem.toDouble).bind fun e =>
    if 0 < numCons then
      ((pyItem l 2).bind PyItem.toArray).bind fun a => (pyToVec 0 a v).bind fun w => .ok (f, e, w)
    else .ok (f, e, v)

/-- The arrays which occur in `sleqp_dyn_set_cons_weights`: those of NumPy, and those which Cython makes of a pointer (`cython.view.array`). -/
inductive PyArr (K : Type*) where
  | numpy (data : List K) (writeable : Bool)
  | cython (data : List K)

/-- `< double[:n] > pointer`: Cython refuses arrays without elements. -/
def pyPointer (n : Nat) (p : List K) : MexRes (PyArr K) := if n = 0 then .err else .ok (.cython (p.take n))

/-- `_readonly`, bindings/python/src/extension/problem.pxi:4-7: `view` is a method of NumPy arrays; those of Cython do not have it, the
exception is an `AttributeError`. -/
def pyReadonly : PyArr K → MexRes (PyArr K)
  | .numpy a _ => .ok (.numpy a false)
  | .cython _ => .err

/-- the assignment to a variable of type `double[:]`, which needs a buffer that can be written to -/
def pyMemoryview : PyArr K → MexRes (List K)
  | .numpy a true => .ok a
  | .numpy _ false => .err
  | .cython a => .ok a

/-- a method of the Python function is called -/
def PyDyn.call (F : PyDynFunc K) (s : PyDyn K) (t : PyTold K) : MexRes (PyDyn K) :=
  if F.raises s.told t then .err else .ok { s with told := s.told ++ [t] }

/-- `sleqp_dyn_func_set_error_bound`, dyn.c:292-309, with `sleqp_dyn_set_error_bound`, bindings/python/src/extension/dyn.pxi:40-50 (without a
`return` Cython returns 0, which is `SLEQP_OKAY`) -/
def PyDyn.setErrorBound (F : PyDynFunc K) (s : PyDyn K) (b : K) : MexRes (PyDyn K) := ({ s with bound := b } : PyDyn K).call F (.errorBound b)

/-- `sleqp_dyn_func_set_obj_weight`, dyn.c:354-370, with `sleqp_dyn_set_obj_weight`, bindings/python/src/extension/dyn.pxi:60-70 -/
def PyDyn.setObjWeight (F : PyDynFunc K) (s : PyDyn K) (w : K) : MexRes (PyDyn K) := s.call F (.objWeight w)

/-- `sleqp_dyn_func_set_cons_weights`, dyn.c:372-393, with `sleqp_dyn_set_cons_weights`, bindings/python/src/extension/dyn.pxi:80-96; `ws` is the
memory of the weights -/
def PyDyn.setConsWeights (F : PyDynFunc K) (s : PyDyn K) (ws : List K) : MexRes (PyDyn K) :=
  if s.numCons = 0 then .ok s
  else (pyPointer s.numCons ws).bind fun p => (pyReadonly p).bind fun a => (pyMemoryview a).bind fun l => s.call F (.consWeights l)

/-- the errors a dynamic function may report, dyn.c:121-137: an error is reported (`SLEQP_NONE` is -1), not negative, and not larger than the bound -/
def pyDynErrorOk (bound : K) (e : Ext K) : Bool :=
  !(decide (e = .fin (-1))) && !(Ext.lt e (.fin 0)) && !(Ext.gt e (.fin bound))

/-- `dyn_func_eval`, dyn.c:87-141, for a point at which the function has not been evaluated yet -/
def PyDyn.eval (F : PyDynFunc K) (s : PyDyn K) : MexRes (PyDyn K) :=
  (s.call F .eval).bind fun s1 => (pyDynResult s.numCons s.consVal (F.result s.told)).bind fun r =>
    if pyDynErrorOk s.bound r.2.1 then .ok { s1 with objVal := r.1, error := r.2.1, consVal := r.2.2 } else .err

/-- a call of the library -/
inductive PyDynOp (K : Type*) where
  | errorBound (b : K)
  | objWeight (w : K)
  | consWeights (ws : List K)
  | eval

/-- one call of the library -/
def PyDyn.step (F : PyDynFunc K) (s : PyDyn K) : PyDynOp K → MexRes (PyDyn K)
  | .errorBound b => s.setErrorBound F b
  | .objWeight w => s.setObjWeight F w
  | .consWeights ws => s.setConsWeights F ws
  | .eval => s.eval F

/-- a history of calls: an error ends it -/
def PyDyn.run (F : PyDynFunc K) : PyDyn K → List (PyDynOp K) → MexRes (PyDyn K)
  | s, [] => .ok s
  | s, op :: ops => (s.step F op).bind fun s1 => PyDyn.run F s1 ops

/-- `sleqp_dyn_func_create`, dyn.c:234-273, as called by `create_dyn_func`, bindings/python/src/extension/dyn.pxi:144-159 -/
def PyDyn.create (numCons : Nat) : PyDyn K := ⟨numCons, [], .fin 0, Vec.create numCons 0, 0, .fin 0⟩

/-- The calls before the first iterate: `set_obj_weight`, solver.c:98-109, 194, `sleqp_trial_point_solver_create`, trial_point.c:249-338,
`set_initial_iterate`, solver/solve.c:57-93, with `sleqp_dyn_set_penalty_cons_weights`, dyn.c:395-420 -/
def pyDynStart (numCons : Nat) (penalty : K) : List (PyDynOp K) :=
  [.objWeight 1, .errorBound 1] ++ if numCons = 0 then [] else [.consWeights (List.replicate numCons penalty)]

end
end Sleqp

import Verif.Model.Callback

/-!
Model of the way errors take from Python code of the user (functions and callbacks) through the library back to Python:
`/repo/src/main/error.c`, the macros `SLEQP_FUNC_CALL` (`/repo/src/main/func.h`) and `SLEQP_CALLBACK_EVENT` (`/repo/src/main/solver.h`), and
`call.pxi`, `func.pxi`, `callback.pxi`, `solver.pxi` in `/repo/bindings/python/src/extension`.

A solve is an arbitrary sequence of evaluations, events and errors of the library itself; it ends with the first error, since every call in
the library is wrapped in `SLEQP_CALL` (pub_types.h:75-88). Return codes are `true` for `SLEQP_OKAY` and `false` for `SLEQP_ERROR`. Handles of
callbacks are numbers, given in order of creation. The return code `SLEQP_ABORT_TIME`, the global interpreter lock and threads are not modelled.
-/

namespace Sleqp

/-- An exception raised by the user's code: its identity and its truth value in Python (false only for classes that define it so). -/
structure UserExc where
  id : Nat
  truthy : Bool
  deriving DecidableEq, Repr

/-- `SLEQP_ERROR_TYPE`, pub_types.h:34-44. -/
inductive ErrType
  | failedAssertion | noMem | internalError | funcEvalError | callbackError | mathError | invalidDeriv | illegalArgument
  deriving DecidableEq, Repr

/-- The thread-local error, error.c:7-8; a message `none` is indeterminate. -/
structure ErrState where
  type : ErrType
  msg : Option String
  deriving DecidableEq, Repr

/-- Python exception types, bindings/python/src/extension/call.pxi:6-25. -/
inductive PyKind
  | exception | evaluationError | callbackError | assertionError | memoryError | arithmeticError | valueError
  deriving DecidableEq, Repr

/-- `_exception_map`, bindings/python/src/extension/call.pxi:16-25. -/
def ErrType.kind : ErrType → PyKind
  | .failedAssertion => .assertionError
  | .noMem => .memoryError
  | .internalError => .exception
  | .funcEvalError => .evaluationError
  | .callbackError => .callbackError
  | .mathError => .arithmeticError
  | .invalidDeriv => .exception
  | .illegalArgument => .valueError

/-- An exception as seen by the caller, with its chain of causes. -/
inductive Raised
  | user (e : UserExc)
  | plain (kind : PyKind) (msg : Option String)
  | caused (kind : PyKind) (msg : Option String) (cause : Raised)
  deriving DecidableEq, Repr

/-! ### evaluations -/

/-- A function object of the library: whether it carries `SLEQP_FUNC_INTERNAL` (for products with the Hessian: or
`SLEQP_FUNC_HESS_INTERNAL`), and the message of the check of its result (fail.h:20-32) that fails after the call, if any (never in release builds, where checks are absent, fail.h:34-45). -/
structure FuncLayer where
  internal : Bool
  bad : Option String
  deriving DecidableEq, Repr

/-- `SLEQP_FUNC_CALL`, func.h:23-38, for a call that returned `ok` leaving the error `err`: the new message is printed into the buffer that
also holds the old one handed over as argument (error.c:22-38), so its contents are indeterminate. -/
def funcCall (internal : Bool) (r : Bool × ErrState) : Bool × ErrState :=
  if internal then r
  else if r.1 then r
  else (false, ⟨.funcEvalError, none⟩)

/-- `sleqp_func_set_value`, func.c:79-100, `sleqp_func_obj_val`, func.c:129-147, `sleqp_func_obj_grad`, func.c:149-172, `sleqp_func_cons_val`,
func.c:174-202, `sleqp_func_cons_jac`, func.c:204-232, `sleqp_func_hess_prod`, func.c:373-408 on the functions `layers`, the outermost first: each
calls the next; `raises` is the exception raised by the user's Python function at the end of the chain, which makes the callback
(bindings/python/src/extension/func.pxi:6-30 and others) return `SLEQP_ERROR` without an error of the library. -/
def evalLayers (raises : Option UserExc) : List FuncLayer → ErrState → Bool × ErrState
  | [], err => (raises.isNone, err)
  | l :: ls, err =>
    let r := funcCall l.internal (evalLayers raises ls err)
    match r.1, l.bad with
    | true, some m => (false, ⟨.failedAssertion, some m⟩)
    | _, _ => r

/-! ### the solver object -/

/-- The origin of a call of the user's code. -/
inductive CallSrc
  | func
  | callback (handle : Nat)
  deriving DecidableEq, Repr

/-- `Solver` with its `CallbackHandle`s, bindings/python/src/extension/solver.pxi:7-19, callback.pxi:6-21: the library's error and handlers, the
exception stored at the user's function, the list `callback_handles` (with events), the exceptions stored at the handles, the number of
handles created, and (not in the code) the calls of the user's code during the solve with the exceptions raised. -/
structure PyState where
  next : Nat
  err : ErrState
  funcExc : Option UserExc
  hs : Nat → Handler Nat
  handles : List (Nat × Nat)
  cbExc : Nat → Option UserExc
  calls : List (CallSrc × Option UserExc)

/-- What a callback does with the callbacks of the solver. -/
inductive HandleOp
  | add (event : Nat)
  | remove (handle : Nat)
  deriving DecidableEq, Repr

/-- What a callback does when called. -/
structure CbRun where
  ops : List HandleOp
  raises : Option UserExc
  deriving DecidableEq, Repr

/-- A new solver: no callbacks. -/
def PyState.init (err : ErrState) : PyState := ⟨0, err, none, fun _ => Handler.create, [], fun _ => none, []⟩

/-- `Solver.add_callback`, `Solver.remove_callback`, bindings/python/src/extension/solver.pxi:200-225. A refused call raises an exception at
its caller and changes nothing else (the library's error it sets is overwritten by any error that ends a solve). -/
def PyState.op (s : PyState) : HandleOp → PyState
  | .add ev =>
    match solverAddCallback s.hs ev s.next with
    | .error _ => { s with next := s.next + 1 }
    | .ok hs =>
      { s with next := s.next + 1, hs := hs, handles := s.handles ++ [(s.next, ev)],
               cbExc := fun k => if k = s.next then none else s.cbExc k }
  | .remove h =>
    match s.handles.find? (fun p => p.1 = h) with
    | none => s
    | some p =>
      match solverRemoveCallback s.hs p.2 h with
      | .error _ => s
      | .ok hs => { s with hs := hs, handles := s.handles.erase p }

/-- `accepted_iterate`, `performed_iteration`, `finished`, bindings/python/src/extension/callback.pxi:24-48, 57-73, 81-105. -/
def PyState.callback (s : PyState) (h : Nat) (r : CbRun) : Bool × PyState :=
  let s1 := { r.ops.foldl PyState.op s with calls := s.calls ++ [(.callback h, r.raises)] }
  match r.raises with
  | none => (true, s1)
  | some e => (false, { s1 with cbExc := fun k => if k = h then some e else s1.cbExc k })

/-- `SLEQP_CALLBACK_EVENT`, solver.h:21-46: `fuel` callbacks are left, `pos` is the position. -/
def PyState.dispatch (beh : Nat → CbRun) (ev : Nat) : Nat → Nat → PyState → Bool × PyState
  | 0, _, s => (true, s)
  | fuel + 1, pos, s =>
    match (s.hs ev).get pos with
    | .error _ => (false, { s with err := ⟨.illegalArgument, some "Invalid index"⟩ })
    | .ok h =>
      let r := s.callback h (beh h)
      if r.1 then PyState.dispatch beh ev fuel (pos + 1) r.2
      else (false, { r.2 with err := ⟨.callbackError, some "Error executing callback handler for event"⟩ })

/-- Steps of a solve. -/
inductive LibStep
  /-- evaluation of the user's function through the functions `outer` of the library; `bad`: the check its result fails -/
  | eval (outer : List FuncLayer) (bad : Option String) (raises : Option UserExc)
  /-- an event, with the behaviour of each callback -/
  | event (ev : Nat) (beh : Nat → CbRun)
  /-- an error of the library -/
  | fail (type : ErrType) (msg : String)

/-- One step. `store_func_exc`, bindings/python/src/extension/func.pxi:3-4, keeps the exception at the function. -/
def PyState.step (s : PyState) : LibStep → Bool × PyState
  | .eval outer bad raises =>
    let r := evalLayers raises (outer ++ [⟨false, bad⟩]) s.err
    (r.1, { s with err := r.2, funcExc := raises.or s.funcExc, calls := s.calls ++ [(.func, raises)] })
  | .event ev beh => s.dispatch beh ev (s.hs ev).size 0
  | .fail t m => (false, { s with err := ⟨t, some m⟩ })

/-- `sleqp_solver_solve` as a sequence of steps. -/
def PyState.run : List LibStep → PyState → Bool × PyState
  | [], s => (true, s)
  | st :: sts, s =>
    let r := s.step st
    if r.1 then PyState.run sts r.2 else r

/-- `_get_exception`, bindings/python/src/extension/call.pxi:27-34. -/
def ErrState.exception (e : ErrState) : Raised := .plain e.type.kind e.msg

/-- `__cause__` is set if the stored exception is true. -/
def withCause (kind : PyKind) (msg : Option String) : Option UserExc → Raised
  | none => .plain kind msg
  | some e => if e.truthy then .caused kind msg (.user e) else .plain kind msg

/-- The exception stored at the first handle that has one, bindings/python/src/extension/solver.pxi:97-103. -/
def PyState.firstCbExc (s : PyState) : Option UserExc := s.handles.findSome? fun p => s.cbExc p.1

/-- The exception raised by `Solver._solve` for a failed solve, bindings/python/src/extension/solver.pxi:82-109. -/
def PyState.raised (s : PyState) : Raised :=
  let m := some "Error during solution process"
  match s.err.type with
  | .funcEvalError => .caused .exception m (withCause .evaluationError s.err.msg s.funcExc)
  | .callbackError => .caused .exception m (withCause .callbackError (some "") s.firstCbExc)
  | _ => .caused .exception m s.err.exception

/-- The state in which the solve begins, bindings/python/src/extension/solver.pxi:64-67. -/
def PyState.reset (s : PyState) : PyState :=
  { s with calls := [], funcExc := none, cbExc := fun k => if s.handles.any (fun p => p.1 = k) then none else s.cbExc k }

/-- `Solver._solve`, bindings/python/src/extension/solver.pxi:56-109. -/
def PyState.solve (s : PyState) (steps : List LibStep) : Option Raised × PyState :=
  let r := s.reset.run steps
  if r.1 then (none, r.2) else (some r.2.raised, r.2)

/-- What a user does with a solver. -/
inductive PyAct
  | op (o : HandleOp)
  | solve (steps : List LibStep)

/-- The state after a history of calls. -/
def PyState.act (s : PyState) : PyAct → PyState
  | .op o => s.op o
  | .solve steps => (s.solve steps).2

/-! ### creation of a solver -/

/-- The call of one of the methods for numbers of nonzeros by `try_call` in `sleqp_func_nonzeros`,
bindings/python/src/extension/func.pxi:53-63; the exception comes with the information whether it is an `AttributeError`. `none`: the exception
is passed on, `some none`: the value `SLEQP_NONE` is taken. -/
def tryCall : Except (UserExc × Bool) Nat → Except UserExc (Option Nat)
  | .ok n => .ok (some n)
  | .error (e, isAttr) => if isAttr then .ok none else .error e

/-- Creation of a `Solver`, bindings/python/src/extension/solver.pxi:21-47: the iterates created by `sleqp_solver_create` ask for numbers of
nonzeros (iterate.c:566-623), an error is raised by `csleqp_call`, bindings/python/src/extension/call.pxi:39-41. -/
def pyCreate (outer : List FuncLayer) (err : ErrState) (nnz : Except (UserExc × Bool) Nat) : Option Raised :=
  let raises := match tryCall nnz with
    | .ok _ => none
    | .error e => some e
  let r := evalLayers raises (outer ++ [⟨false, none⟩]) err
  if r.1 then none else some r.2.exception

end Sleqp

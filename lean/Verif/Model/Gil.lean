import Verif.Model.Callback

/-!
Model of the global interpreter lock in the Python bindings: `gil.pxi`, and the parts of `func.pxi`, `dyn.pxi`, `lsq.pxi`, `log.pxi`, `callback.pxi`,
`solver.pxi` and `problem.pxi` in `/repo/bindings/python/src/extension` that choose between functions which acquire the lock (`…_nogil`) and
functions which do not.

All Python code runs while holding the lock, except that a solve may release it. The lock can be acquired by a thread holding it already. A thread
may be interrupted by others wherever it runs Python code. Contents of functions are left out.
-/

namespace Sleqp

/-- what the library calls: the log handler, functions of problems of the three kinds, callbacks of solvers -/
inductive GKind | log | func | dyn | lsq | callback
deriving DecidableEq, Repr

/-- the state: `release_gil` (gil.pxi:1), which of the functions called by the library acquire the lock, which of them are found when they are
to be exchanged (they are in one of the sets `funcs`, `dyn_funcs`, `lsq_funcs`, `solvers`), the solves that are running (by thread, and whether they
hold the lock), and for all calls so far whether the lock was held -/
structure GState where
  release : Bool
  nogil : GKind → ℕ → Bool
  registered : GKind → ℕ → Bool
  solving : ℕ → Option Bool
  ok : List Bool

/-- parts of calls which are not interrupted -/
inductive GStep
  | flag (v : Bool)
  | update (k : GKind)
  | make (k : GKind) (id : ℕ)
  | register (k : GKind) (id : ℕ)
  | forget (k : GKind) (id : ℕ)
  | enter (t : ℕ)
  | leave (t : ℕ)
  | call (t : ℕ) (k : GKind) (id : ℕ)
deriving DecidableEq, Repr

/-- after loading the module there is the log handler only (log.pxi:28-32, 35-39) -/
def GState.init : GState := ⟨false, fun _ _ => false, fun k id => decide (k = .log ∧ id = 0), fun _ => none, []⟩

/-- one step:
`flag` is the assignment gil.pxi:24;
`update` stands for `update_log_handler` (log.pxi:28-32), `update_func_callbacks` (func.pxi:298-311), `update_dyn_func_callbacks` (dyn.pxi:133-142),
`update_lsq_func_callbacks` (lsq.pxi:166-175) and `update_solver_callbacks` (solver.pxi:308-313), with `set_func_callbacks` (func.pxi:277-295),
`set_dyn_func_callbacks` (dyn.pxi:106-128), `set_lsq_func_callbacks` (lsq.pxi:143-161) and `get_callback_function_pointer` (callback.pxi:114-134);
`make` creates a function (func.pxi:338-360, dyn.pxi:144-158, lsq.pxi:178-198) or adds a callback to a solver (solver.pxi:204-212);
`register` puts it where it is found (problem.pxi:309, 391, 463; solver.pxi:214), `forget` is the end of the object, or `remove_callback`
(solver.pxi:218-225);
`enter` and `leave` are begin and end of `sleqp_solver_solve` (solver.pxi:69-77), without the lock if `release_gil` is set;
`call` is a call by the library, in a solve (without the lock if it was released) or outside (with it). -/
def GState.step (s : GState) : GStep → GState
  | .flag v => { s with release := v }
  | .update k => { s with nogil := fun k' id => if k' = k ∧ s.registered k' id = true then s.release else s.nogil k' id }
  | .make k id => { s with nogil := fun k' id' => if k' = k ∧ id' = id then s.release else s.nogil k' id' }
  | .register k id => { s with registered := fun k' id' => if k' = k ∧ id' = id then true else s.registered k' id' }
  | .forget k id => { s with registered := fun k' id' => if k' = k ∧ id' = id then false else s.registered k' id' }
  | .enter t => { s with solving := fun t' => if t' = t then some (!s.release) else s.solving t' }
  | .leave t => { s with solving := fun t' => if t' = t then none else s.solving t' }
  | .call t k id =>
    { s with ok := s.ok ++ [s.nogil k id || (match s.solving t with
      | none => true
      | some held => held)] }

/-- steps one after the other -/
def GState.steps (s : GState) : List GStep → GState
  | [] => s
  | x :: xs => (s.step x).steps xs

/-- what users do -/
inductive GOp
  /-- `set_release_gil`, gil.pxi:11-29 -/
  | setRelease (v : Bool)
  /-- creation of a problem, or `add_callback` -/
  | create (k : GKind) (id : ℕ)
  /-- end of a problem, or `remove_callback` -/
  | destroy (k : GKind) (id : ℕ)
  | start (t : ℕ)
  | finish (t : ℕ)
  | callback (t : ℕ) (k : GKind) (id : ℕ)
deriving DecidableEq, Repr

/-- the steps an operation consists of, gil.pxi:21-29 for the first -/
def GOp.parts (s : GState) : GOp → List GStep
  | .setRelease v =>
    if v = s.release then []
    else [.flag v, .update .log, .update .func, .update .dyn, .update .lsq, .update .callback]
  | .create k id => [.make k id, .register k id]
  | .destroy k id => [.forget k id]
  | .start t => [.enter t]
  | .finish t => [.leave t]
  | .callback t k id => [.call t k id]

/-- an operation that is not interrupted by others -/
def GState.perform (s : GState) (op : GOp) : GState := s.steps (op.parts s)

/-- operations one after the other -/
def GState.performAll (s : GState) : List GOp → GState
  | [] => s
  | op :: ops => (s.perform op).performAll ops

/-- a registered callback: whether its function acquires the lock, and its handle -/
abbrev GHandle := Bool × ℕ

/-- `update_callbacks`, solver.pxi:227-243, for the handles of one event: each of them is removed from the handler of the solver and added again with the
function for `v`. The handlers of other events are not touched (solver/callback.c:5-23, 25-44). -/
def updateHandles (v : Bool) : List GHandle → Handler GHandle → Except CbErr (Handler GHandle)
  | [], h => .ok h
  | c :: rest, h =>
    match h.remove c with
    | .error e => .error e
    | .ok h =>
      match h.add (v, c.2) with
      | .error e => .error e
      | .ok h => updateHandles v rest h

/-- execution of a callback by the dispatch of an event, if the callback with the handle `who` switches to `v` by `set_release_gil`; `handles` are
the handles of the event in the order in which they were added (solver.pxi:230) -/
def switchingExec (v : Bool) (who : ℕ) (handles : List GHandle) (c : GHandle) (h : Handler GHandle) : Handler GHandle × Bool :=
  if c = ((!v), who) then
    match updateHandles v handles h with
    | .ok h' => (h', true)
    | .error _ => (h, false)
  else (h, true)

end Sleqp

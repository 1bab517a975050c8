import Mathlib.Data.List.Basic

/-!
Model of `/repo/src/main/callback_handler.c`, `/repo/src/main/solver/callback.c` and the dispatch macro
`SLEQP_CALLBACK_EVENT` in `/repo/src/main/solver.h`.

A callback is a value of type `α` (the pair of function and data pointers). Reference counting is not modelled.
-/

namespace Sleqp

/-- the errors raised: `SLEQP_ILLEGAL_ARGUMENT`, `SLEQP_CALLBACK_ERROR`, and writing past the allocated array -/
inductive CbErr | illegalArgument | callbackError | outOfBounds
deriving DecidableEq, Repr

/-- `SleqpCallbackHandler`, callback_handler.c:14-22; the first `size` callbacks are `cbs`. -/
structure Handler (α : Type*) where
  capacity : Nat
  cbs : List α
deriving Repr

namespace Handler
variable {α : Type*} [DecidableEq α]

/-- `sleqp_callback_handler_create`, callback_handler.c:24-36. -/
def create : Handler α := ⟨0, []⟩

/-- `sleqp_callback_handler_size`, callback_handler.c:46-50. -/
def size (h : Handler α) : Nat := h.cbs.length

/-- `sleqp_callback_handler_get`, callback_handler.c:52-70. -/
def get (h : Handler α) (pos : Nat) : Except CbErr α :=
  match h.cbs[pos]? with
  | some c => .ok c
  | none => .error .illegalArgument

/-- `callback_handler_reserve`, callback_handler.c:72-89. -/
def reserve (h : Handler α) : Handler α :=
  if h.size < h.capacity then h else { h with capacity := max 1 (2 * h.capacity) }

/-- `sleqp_callback_handler_add`, callback_handler.c:91-104. -/
def add (h : Handler α) (c : α) : Except CbErr (Handler α) :=
  let h := h.reserve
  if h.size < h.capacity then .ok { h with cbs := h.cbs ++ [c] } else .error .outOfBounds

/-- the search loop callback_handler.c:115-123, starting at position `pos` -/
def findFrom (c : α) : Nat → List α → Option Nat
  | _, [] => none
  | pos, x :: t => if x = c then some pos else findFrom c (pos + 1) t

/-- `sleqp_callback_handler_remove`, callback_handler.c:106-142. -/
def remove (h : Handler α) (c : α) : Except CbErr (Handler α) :=
  match findFrom c 0 h.cbs with
  | none => .error .illegalArgument
  | some pos =>
    let size := h.size - 1
    if pos ≠ size then
      match h.cbs[size]? with
      | some last => .ok { h with cbs := (h.cbs.set pos last).take size }
      | none => .error .outOfBounds
    else .ok { h with cbs := h.cbs.take size }

/-- loop of `SLEQP_CALLBACK_EVENT`, solver.h:21-46: `fuel` callbacks are left, `pos` is the position. Executing a
callback may change the handlers (by registering or removing callbacks) and reports whether it succeeded; `called` collects
the executed callbacks. -/
def dispatchFrom (exec : α → Handler α → Handler α × Bool) : Nat → Nat → Handler α → List α → Except CbErr (Handler α) × List α
  | 0, _, h, called => (.ok h, called)
  | fuel + 1, pos, h, called =>
    match h.get pos with
    | .error e => (.error e, called)
    | .ok c =>
      if (exec c h).2 then dispatchFrom exec fuel (pos + 1) (exec c h).1 (called ++ [c])
      else (.error .callbackError, called ++ [c])

/-- `SLEQP_CALLBACK_EVENT`, solver.h:21-46. -/
def dispatch (exec : α → Handler α → Handler α × Bool) (h : Handler α) : Except CbErr (Handler α) × List α :=
  dispatchFrom exec h.size 0 h []

end Handler

section
variable {α : Type*} [DecidableEq α]

/-- replaces the handler of one event -/
def setHandler (hs : Nat → Handler α) (ev : Nat) (h : Handler α) : Nat → Handler α := fun e => if e = ev then h else hs e

/-- `sleqp_solver_add_callback`, solver/callback.c:5-23; there are 3 events. -/
def solverAddCallback (hs : Nat → Handler α) (event : Int) (c : α) : Except CbErr (Nat → Handler α) :=
  if event < 0 ∨ 3 ≤ event then .error .illegalArgument
  else ((hs event.toNat).add c).map (setHandler hs event.toNat)

/-- `sleqp_solver_remove_callback`, solver/callback.c:25-44. -/
def solverRemoveCallback (hs : Nat → Handler α) (event : Int) (c : α) : Except CbErr (Nat → Handler α) :=
  if event < 0 ∨ 3 ≤ event then .error .illegalArgument
  else ((hs event.toNat).remove c).map (setHandler hs event.toNat)

end
end Sleqp

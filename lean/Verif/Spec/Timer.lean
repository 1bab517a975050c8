import Verif.Model.Timer
import Mathlib.Algebra.BigOperators.Group.List.Basic

/-! Specification of time accounting. -/

namespace Sleqp
variable {K : Type*} [Field K] [LinearOrder K]

/-- calls on a timer, with the clock readings -/
inductive TimerOp (K : Type*)
  | start (now : K)
  | stop (now : K)
  | add (v : K)

/-- executing calls, `none` if an assertion fails -/
def TimerOp.run : Timer K → List (TimerOp K) → Option (Timer K)
  | t, [] => some t
  | t, .start now :: ops => (t.startAt now).bind fun t => run t ops
  | t, .stop now :: ops => (t.stopAt now).bind fun t => run t ops
  | t, .add v :: ops => run (t.add v) ops

/-- lengths of the completed intervals of a history, and the added values; `pending` is the time of an unmatched start -/
def TimerOp.spent : Option K → List (TimerOp K) → List K
  | _, [] => []
  | _, .start now :: ops => spent (some now) ops
  | some s, .stop now :: ops => (now - s) :: spent none ops
  | none, .stop _ :: ops => spent none ops
  | p, .add v :: ops => v :: spent p ops

/-- number of stops -/
def TimerOp.stops : List (TimerOp K) → Nat
  | [] => 0
  | .stop _ :: ops => stops ops + 1
  | _ :: ops => stops ops

/-- the unmatched start after a history -/
def TimerOp.pending : Option K → List (TimerOp K) → Option K
  | p, [] => p
  | _, .start now :: ops => pending (some now) ops
  | _, .stop _ :: ops => pending none ops
  | p, .add _ :: ops => pending p ops

/-- seconds per unit -/
def TimeUnit.seconds : TimeUnit → K
  | .day => 86400 | .hour => 3600 | .minute => 60 | .second => 1 | .milli => 1 / 1000 | .micro => 1 / 1000000

end Sleqp

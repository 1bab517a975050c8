import Verif.Model.Callback
import Mathlib.Data.Multiset.Basic
import Mathlib.Data.Multiset.AddSub

/-! Specification of callback registration: a multiset of callbacks per event. -/

namespace Sleqp
variable {α : Type*} [DecidableEq α]

/-- A user's call: register or unregister a callback for an event. -/
inductive CbOp (α : Type*)
  | add (event : Int) (c : α)
  | remove (event : Int) (c : α)

/-- the call is admissible: the event exists, and the removed callback is registered -/
def CbOp.Legal (reg : Int → Multiset α) : CbOp α → Prop
  | .add ev _ => 0 ≤ ev ∧ ev < 3
  | .remove ev c => (0 ≤ ev ∧ ev < 3) ∧ c ∈ reg ev

/-- effect of an admissible call -/
def CbOp.effect (reg : Int → Multiset α) : CbOp α → Int → Multiset α
  | .add ev c => fun e => if e = ev then c ::ₘ reg e else reg e
  | .remove ev c => fun e => if e = ev then (reg e).erase c else reg e

open Classical in
/-- registered callbacks after a sequence of calls; inadmissible ones have no effect -/
noncomputable def registered : (Int → Multiset α) → List (CbOp α) → Int → Multiset α
  | reg, [] => reg
  | reg, op :: ops => registered (if op.Legal reg then op.effect reg else reg) ops

/-- the call as executed by the solver -/
def CbOp.exec (hs : Nat → Handler α) : CbOp α → Except CbErr (Nat → Handler α)
  | .add ev c => solverAddCallback hs ev c
  | .remove ev c => solverRemoveCallback hs ev c

/-- a user performing calls, ignoring errors -/
def runCalls : (Nat → Handler α) → List (CbOp α) → Nat → Handler α
  | hs, [] => hs
  | hs, op :: ops => runCalls (match op.exec hs with | .ok hs' => hs' | .error _ => hs) ops

end Sleqp

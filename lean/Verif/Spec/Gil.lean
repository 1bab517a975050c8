import Verif.Model.Gil
import Mathlib.Data.Multiset.Defs

/-! Which histories keep the global interpreter lock where it is needed. -/

namespace Sleqp

/-- an operation is fine if only existing functions and callbacks are called, and the release of the lock is not revoked while a solve runs
without the lock -/
def GOp.Fine (s : GState) : GOp → Prop
  | .setRelease v => v = false → ∀ t, s.solving t ≠ some false
  | .callback _ k id => s.registered k id = true
  | _ => True

/-- all operations are fine -/
def FineAll : GState → List GOp → Prop
  | _, [] => True
  | s, op :: ops => op.Fine s ∧ FineAll (s.perform op) ops

/-- the handles after a switch to `v`: the same ones -/
def switched (v : Bool) (handles : List GHandle) : List GHandle := handles.map fun c => (v, c.2)

end Sleqp

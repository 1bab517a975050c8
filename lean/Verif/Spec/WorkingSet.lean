import Verif.Model.WorkingSet

/-!
Specification of working sets: an ordered list of active entries, variables first.
-/

namespace Sleqp

/-- an active variable (`constraint = false`) or constraint with its state -/
structure WEntry where
  constraint : Bool
  index : Nat
  state : ActiveState
  deriving DecidableEq

/-- one call on a pool of lists; `n`, `m`: numbers of variables and constraints.  An entry
may be added if its index is in range, it is not yet in the list, its state is an active
one, and — for variables — no constraint is in the list. -/
def WOp.spec (n m : Nat) (pool : Nat → List WEntry) : WOp → Option (Nat → List WEntry)
  | .add p c i st =>
    if i < (if c then m else n) ∧ (∀ e ∈ pool p, ¬ (e.constraint = c ∧ e.index = i)) ∧
        (c = false → ∀ e ∈ pool p, e.constraint = false) ∧ st ≠ .inactive then
      some (WSet.upd pool p (pool p ++ [⟨c, i, st⟩]))
    else none
  | .reset p => some (WSet.upd pool p [])
  | .copy s t => some (WSet.upd pool t (pool s))

def WOp.specRun (n m : Nat) (pool : Nat → List WEntry) (ops : List WOp) : Option (Nat → List WEntry) :=
  ops.foldlM (WOp.spec n m) pool

end Sleqp

import Verif.Model.IterBufs

/-!
Specification for C120 and C121: the points visited by a run, each with the multipliers and the working set computed there last.
-/

namespace Sleqp
variable {X D W : Type*}

/-- a point with the multipliers and the working set computed there last, if any -/
structure Visit (X D W : Type*) where
  x : X
  est : Option (D × W)

/-- the points visited, newest first, after one more iteration: it computes multipliers and working set at the newest point, and an accepted step leads to a new one -/
def visit (h : List (Visit X D W)) (e : IterIn X D W) : List (Visit X D W) :=
  match h with
  | [] => []
  | v :: t =>
    match e.out with
    | .stop => v :: t
    | .infeasible => ⟨v.x, some (e.dual, e.ws)⟩ :: t
    | .rejected => ⟨v.x, some (e.dual, e.ws)⟩ :: t
    | .accepted => ⟨e.soc.getD e.trial, none⟩ :: ⟨v.x, some (e.dual, e.ws)⟩ :: t

end Sleqp

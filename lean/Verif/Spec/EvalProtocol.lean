import Verif.Model.EvalProtocol

/-! Specification for C82: what a record of calls must satisfy. -/

namespace Sleqp

variable {P : Type*}

/-- The effect of a call on the value of the function and the answer whether it is rejected. -/
def setStep (cur : Option (P × Bool)) : EvalCall P → Option (P × Bool)
  | .set x _ rej => some (x, rej)
  | _ => cur

/-- The value set last, and whether the function rejected it. -/
def lastSet (log : List (EvalCall P)) : Option (P × Bool) := log.foldl setStep none

/-- Every evaluation takes place while the value of the function is the point it is used for, and the
function did not reject this value. -/
def EvalsAtSet (log : List (EvalCall P)) : Prop :=
  ∀ pre part x post, log = pre ++ .eval part x :: post → lastSet pre = some (x, false)

/-- Whatever is read from an iterate was evaluated at the primal point of the iterate. -/
def ReadsFresh (log : List (EvalCall P)) : Prop :=
  ∀ part x src, EvalCall.read part x src ∈ log → src = some x

/-- The function is at the current iterate, all parts of which were evaluated there. -/
def EvalState.Synced (s : EvalState P) : Prop :=
  s.func = some s.iterate.x ∧ lastSet s.log = some (s.iterate.x, false) ∧
    ∀ p, p ≠ .hess → s.iterate.src p = some s.iterate.x

/-- The values set for a reason, in order. -/
def valuesSet (r : ValReason) (log : List (EvalCall P)) : List P :=
  log.filterMap fun
    | .set x r' _ => if r' = r then some x else none
    | _ => none

/-- What the function is told during an iteration from iterate `x` to iterate `y` with the record `l`. If the step
is accepted, the only value set as accepted is `y`, which was tried and not rejected by the function before;
otherwise the iterate stays, and a value set as that after a rejected step is the iterate. -/
structure IterationTold (acc : Bool) (x y : P) (l : List (EvalCall P)) : Prop where
  accepted : valuesSet .accepted l = if acc then [y] else []
  tried : acc = true → EvalCall.set y .trying false ∈ l
  kept : acc = false → y = x
  rejected : valuesSet .rejected l = [] ∨ acc = false ∧ valuesSet .rejected l = [x]

end Sleqp

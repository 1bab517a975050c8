import Verif.Model.PyErrors

/-!
Specification for errors seen by Python programs: the end of the chain of causes of an exception, and histories of a solver.
-/

namespace Sleqp

/-- The exception of the user at the end of the chain of causes. -/
def Raised.root : Raised → Option UserExc
  | .user e => some e
  | .plain _ _ => none
  | .caused _ _ c => c.root

/-- The kind of error reported for an exception raised by a function or a callback. -/
def CallSrc.kind : CallSrc → PyKind
  | .func => .evaluationError
  | .callback _ => .callbackError

/-- The exception expected from `solve` when the user's code raised `e`: it was raised from an error of the right kind, which was raised from
`e`. -/
def Blames (R : Raised) (src : CallSrc) (e : UserExc) : Prop :=
  ∃ m m', R = .caused .exception m (.caused src.kind m' (.user e))

/-- A solver after any history of registrations, removals and solves. -/
def PyState.History (s : PyState) : Prop := ∃ err acts, s = List.foldl PyState.act (PyState.init err) acts

/-- No callback that raises an exception has unregistered itself. -/
def StaysRegistered (steps : List LibStep) : Prop :=
  ∀ ev beh, LibStep.event ev beh ∈ steps → ∀ h, (beh h).raises ≠ none → HandleOp.remove h ∉ (beh h).ops

/-- A step in which nothing goes wrong: nothing raised, all results fit, no callback removes callbacks. -/
def LibStep.Quiet : LibStep → Prop
  | .eval outer bad raises => raises = none ∧ bad = none ∧ ∀ l ∈ outer, l.bad = none
  | .event _ beh => ∀ h, (beh h).raises = none ∧ ∀ h', HandleOp.remove h' ∉ (beh h).ops
  | .fail _ _ => False

end Sleqp

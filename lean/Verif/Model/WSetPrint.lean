import Verif.Model.WorkingSet

/-!
Model of the printed forms of working sets: `/repo/src/main/working_set.c` and `/repo/bindings/python/src/extension/working_set.pxi`.  A text is
modelled by its lines.
-/

namespace Sleqp

/-- the lines of the printed forms; states are given by their names -/
inductive SetLine
  /-- "Active set, variables: …, constraints: …" -/
  | header (vars cons : Nat)
  /-- "State of variable …: …" -/
  | var (j : Nat) (state : String)
  /-- "State of constraint …: …" -/
  | cons (i : Nat) (state : String)
  /-- an empty line -/
  | blank
deriving DecidableEq

/-- `state_names` in `sleqp_working_set_fprintf`, working_set.c:520-553 -/
def stateName : ActiveState → String
  | .inactive => "inactive"
  | .upper => "upper"
  | .lower => "lower"
  | .both => "active"

/-- `sleqp_working_set_fprintf`, working_set.c:520-553; the numbers of variables and constraints of the problem are those of the working set. -/
def WSet.print (w : WSet) : List SetLine :=
  .header w.numVars w.numCons ::
    ((List.range w.numVars).map (fun j => .var j (stateName (w.varState j))) ++ (List.range w.numCons).map fun i => .cons i (stateName (w.consState i)))

/-- result of an access in Python: a value, an exception, or a null pointer which is followed -/
inductive PySetOut (α : Type)
  | value (a : α)
  | assertionError
  | nullPointer
deriving DecidableEq

/-- `WorkingSet.num_vars`, bindings/python/src/extension/working_set.pxi:23-32: `none` is an object without a working set of the library, such as one created by
`WorkingSet()`; `sleqp_working_set_problem`, working_set.c:258-262, reads its field. -/
def pySetNumVars : Option WSet → PySetOut Nat
  | some w => .value w.numVars
  | none => .nullPointer

/-- `WorkingSet.num_cons`, bindings/python/src/extension/working_set.pxi:34-43 -/
def pySetNumCons : Option WSet → PySetOut Nat
  | some w => .value w.numCons
  | none => .nullPointer

/-- `WorkingSet.num_active_vars`, bindings/python/src/extension/working_set.pxi:45-53 -/
def pySetActiveVars : Option WSet → PySetOut Nat
  | some w => .value w.actVars
  | none => .assertionError

/-- `WorkingSet.num_active_cons`, bindings/python/src/extension/working_set.pxi:55-63 -/
def pySetActiveCons : Option WSet → PySetOut Nat
  | some w => .value w.actCons
  | none => .assertionError

/-- `WorkingSet.size`, bindings/python/src/extension/working_set.pxi:101-109 -/
def pySetSize : Option WSet → PySetOut Nat
  | some w => .value w.size
  | none => .assertionError

/-- names of the members of `ActiveState` in Python, bindings/python/src/extension/types.pxi:134-141 -/
def pyStateName : ActiveState → String
  | .inactive => "ActiveState.Inactive"
  | .lower => "ActiveState.ActiveLower"
  | .upper => "ActiveState.ActiveUpper"
  | .both => "ActiveState.ActiveBoth"

/-- `"\n".join` of lines, followed by the end of the line: without any lines an empty one is left -/
def pyJoin (l : List SetLine) : List SetLine := if l = [] then [.blank] else l

/-- `WorkingSet.__str__`, bindings/python/src/extension/working_set.pxi:87-99 -/
def pySetStr : Option WSet → PySetOut (List SetLine)
  | some w => .value (.header w.numVars w.numCons :: (pyJoin ((List.range w.numVars).map fun j => .var j (pyStateName (w.varState j))) ++
      pyJoin ((List.range w.numCons).map fun i => .cons i (pyStateName (w.consState i)))))
  | none => .nullPointer

end Sleqp

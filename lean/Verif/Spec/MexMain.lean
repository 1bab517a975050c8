import Verif.Model.MexMain

/-! Specification for C112: what a MATLAB program sees of a call. -/

namespace Sleqp

/-- `info.name` in MATLAB: the contents of a field of the structure, if there is such a field and it was set -/
def MxStruct.field {K : Type*} (s : MxStruct K) (name : String) : Option (List K) :=
  (s.find? fun f => decide (f.1 = name)).bind Prod.snd

/-- a column of numbers is the dense form of a sparse vector -/
def IsDense {K : Type*} [Field K] [LinearOrder K] (v : Vec K) (l : List K) : Prop :=
  l.length = v.dim ∧ ∀ i < v.dim, l[i]? = some (v.value i)

/-- the name of each command with the numbers of results and of further arguments -/
def MexCmd.signature : MexCmd → String × Nat × Nat
  | .info => ("info", 1, 0)
  | .solve => ("solve", 2, 3)
  | .solveDyn => ("solve_dyn", 2, 3)
  | .solveLsq => ("solve_lsq", 2, 3)

/-- the name of a status in MATLAB -/
def SStatus.mexName : SStatus → String
  | .unknown => "Unknown"
  | .running => "Running"
  | .optimal => "Optimal"
  | .infeasible => "Infeasible"
  | .unbounded => "Unbounded"
  | .abortDeadpoint => "AbortDeadpoint"
  | .abortIter => "AbortIter"
  | .abortManual => "AbortManual"
  | .abortTime => "AbortTime"

end Sleqp

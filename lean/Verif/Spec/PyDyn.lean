import Verif.Model.PyDyn
import Verif.Spec.Python

/-! What a dynamic function written in Python should be told, and what may be expected of its results. -/

namespace Sleqp
variable {K : Type*} [Field K] [LinearOrder K]

/-- what a call of the library means for the function: the weights of the constraints are of interest only if there are constraints -/
def PyDynOp.meaning (numCons : Nat) : PyDynOp K → List (PyTold K)
  | .errorBound b => [.errorBound b]
  | .objWeight w => [.objWeight w]
  | .consWeights ws => if numCons = 0 then [] else [.consWeights (ws.take numCons)]
  | .eval => [.eval]

/-- the error bound in force after some calls -/
def boundAfter (b : K) : List (PyTold K) → K
  | [] => b
  | .errorBound c :: l => boundAfter c l
  | _ :: l => boundAfter b l

/-- a proper result: objective value, an error between zero and the bound, and (if there are constraints) as many values as constraints -/
def PyDynResult.Proper (numCons : Nat) (bound : K) (r : PyDynResult K) : Prop :=
  ∃ (f : Ext K) (e : K) (rest : List (PyItem K)), r = .items (.num f :: .num (.fin e) :: rest) ∧ 0 ≤ e ∧ e ≤ bound ∧
    (0 < numCons → ∃ c tail, rest = .arr c :: tail ∧ c.length = numCons)

/-- the function raises no exceptions, and its results are proper whatever it has been told, provided that the bound it was told last is not
negative; `b` is the bound before the first call -/
def PyDynFunc.Proper (F : PyDynFunc K) (numCons : Nat) (b : K) : Prop :=
  (∀ l t, F.raises l t = false) ∧ ∀ l, 0 ≤ boundAfter b l → (F.result l).Proper numCons (boundAfter b l)

end Sleqp

import Verif.Model.DynLayer

/-! Specification vocabulary for layers around dynamic functions. -/

namespace Sleqp

variable {K P V W P' V' W' : Type*}

/-- The calls the function inside a layer should get for a call from outside: the same, with converted arguments. Weights for constraints are only passed
on if there are constraints. -/
def DynLayer.calls (L : DynLayer K P V W P' V' W') (numCons : Nat) : DynOp K P' W' → List (DynOp K P W)
  | .setValue x t => [.setValue (L.point x) t]
  | .setErrorBound b t => [.setErrorBound b t]
  | .setObjWeight w t => [.setObjWeight (L.objWeight w) t]
  | .setConsWeights w t => if numCons = 0 then [] else [.setConsWeights (L.consWeights w) t]
  | .eval => [.eval]

end Sleqp

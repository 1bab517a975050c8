import Verif.Model.MexFunc
import Verif.Spec.Mat
import Verif.Lemmas.QnVec

/-! Specification vocabulary for the callbacks of the MATLAB interface. -/

namespace Sleqp

section
variable {K : Type*} [Field K] [LinearOrder K] {H : Type*}

/-- all components of a vector -/
def fullOf (n : Nat) (v : Vec K) : List K := (List.range n).map v.value

/-- the components of the last element, zeros if there is none -/
def lastOf (n : Nat) (l : List (Vec K)) : List K :=
  match l.getLast? with
  | some v => fullOf n v
  | none => List.replicate n 0

/-- the point last set -/
def mexPointAfter (n : Nat) (hist : List (MexOp K)) : MexArg K :=
  .array 1 n (lastOf n (hist.filterMap fun | .set x => some x | _ => none))

/-- the error bound, the weight of the objective and those of the constraints last set -/
def infoAfter (m : Nat) (hist : List (MexOp K)) : MexArg K :=
  .info (((hist.filterMap fun | .errorBound e => some e | _ => none).getLast?).getD 0)
    (((hist.filterMap fun | .objWeight w => some w | _ => none).getLast?).getD 0)
    (if 0 < m then some (((hist.filterMap fun | .consWeights w => some w | _ => none).getLast?).getD (List.replicate m 0))
     else none)

/-- `c` is a call of the callback `name` with the given arguments -/
def IsCallOf (f : MexFuncs H) (name : MexField) (args : List (MexArg K)) (nlhs : Nat) (c : Option (MexCall H K)) : Prop :=
  ∃ h, f name = some (.handle h) ∧ c = some ⟨h, args, nlhs⟩

/-- The documented call for an operation after the history `hist`: the point as a row, directions and multipliers as columns
(those of least-squares problems as rows), and the structure with the error information for dynamic functions. -/
def RightCall (kind : MexKind) (f : MexFuncs H) (n m k : Nat) (hist : List (MexOp K)) (op : MexOp K)
    (c : Option (MexCall H K)) : Prop :=
  let x := mexPointAfter n hist
  let info := if kind = .dyn then [infoAfter m hist] else []
  match op with
  | .objVal => IsCallOf f .objVal [x] 1 c
  | .objGrad => IsCallOf f .objGrad [x] 1 c
  | .consVal => IsCallOf f .consVal [x] 1 c
  | .consJac => IsCallOf f .consJac [x] 1 c
  | .hessProd d y =>
    if (f .hessProd).isSome then
      IsCallOf f .hessProd ([x, .array n 1 (fullOf n d), .array m 1 (fullOf m y)] ++ info) 1 c
    else IsCallOf f .hess ([x, .array m 1 (fullOf m y)] ++ info) 1 c
  | .residuals => IsCallOf f .lsqRes [x] 1 c
  | .jacForward d => IsCallOf f .lsqFwd [x, .array 1 n (fullOf n d)] 1 c
  | .jacAdjoint d => IsCallOf f .lsqAdj [x, .array 1 k (fullOf k d)] 1 c
  | .eval => IsCallOf f .eval [x, infoAfter m hist] 3 c
  | .set _ | .errorBound _ | .objWeight _ | .consWeights _ => c = none

/-- operations the library uses for a function of that type, with vectors of the right dimensions -/
def OpFits (kind : MexKind) (n m k : Nat) (withHess : Bool) : MexOp K → Prop
  | .set x => VOk n x
  | .objVal => kind = .regular
  | .objGrad => kind ≠ .lsq
  | .consVal => kind ≠ .dyn ∧ 0 < m
  | .consJac => 0 < m
  | .hessProd d y => kind ≠ .lsq ∧ withHess = true ∧ VOk n d ∧ VOk m y
  | .residuals => kind = .lsq
  | .jacForward d => kind = .lsq ∧ VOk n d
  | .jacAdjoint d => kind = .lsq ∧ VOk k d
  | .eval => kind = .dyn
  | .errorBound _ => kind = .dyn
  | .objWeight _ => kind = .dyn
  | .consWeights w => kind = .dyn ∧ 0 < m ∧ w.length = m

/-- the callbacks a user has to provide -/
def Required (kind : MexKind) (f : MexFuncs H) (m : Nat) (withHess : Bool) (name : MexField) : Prop :=
  match name with
  | .objVal => kind = .regular
  | .objGrad => kind ≠ .lsq
  | .consVal => kind ≠ .dyn ∧ 0 < m
  | .consJac => 0 < m
  | .hessProd => kind ≠ .lsq ∧ withHess = true ∧ (f .hessProd).isSome
  | .hess => kind ≠ .lsq ∧ withHess = true ∧ ¬ (f .hessProd).isSome
  | .lsqRes | .lsqFwd | .lsqAdj => kind = .lsq
  | .eval => kind = .dyn
  | .accepted => False

end
end Sleqp

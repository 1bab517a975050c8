import Verif.Model.Ampl
import Verif.Spec.Mat
import Mathlib.Algebra.BigOperators.Group.Finset.Basic

/-! Specification for C85: what the AMPL model says. -/

namespace Sleqp
open Finset
variable {K : Type*} [Field K] [LinearOrder K]

/-- sign of the objective when it is minimised -/
def Asl.sign (A : Asl K) : K := if A.maximize then -1 else 1

/-- the objective which is minimised, `none` if it cannot be evaluated -/
def Asl.minObj (A : Asl K) (x : Nat → K) : AslEval K := (A.obj x).map fun v => A.sign * (v + A.offset)

/-- values are available and finite -/
def AslEval.Fine {α : Type*} (e : AslEval α) : Prop := ∃ a, e = .val a

/-- no error is reported -/
def AslEval.NoError {α : Type*} (e : AslEval α) : Prop := e ≠ .error

/-- calls after the point was set -/
def AmplFunc.Op.isSet : AmplFunc.Op K → Prop
  | .set _ _ => True
  | _ => False

/-- is the objective asked for, and later a product with the Hessian? -/
def ObjBeforeHess (ops : List (AmplFunc.Op K)) : Prop :=
  ∃ a b c d m, ops = a ++ .obj :: b ++ .hess d m :: c

/-- order of the nonzeros of the Jacobian in the ASL: by columns, then by rows -/
def TripletsSorted (es : List (Nat × Nat × K)) : Prop :=
  es.Pairwise fun a b => a.2.1 < b.2.1 ∨ (a.2.1 = b.2.1 ∧ a.1 < b.1)

/-- The matrix has the entries listed, where row `r` is shifted to row `r - first`; the other entries are zero. -/
def HasTriplets (m : Mat K) (first : Nat) (es : List (Nat × Nat × K)) : Prop :=
  ∀ i < m.numRows, ∀ j < m.numCols, (∀ v, (first + i, j, v) ∈ es → m.value i j = v) ∧
    ((∀ v, (first + i, j, v) ∉ es) → m.value i j = 0)

/-- The value `v` respects the bounds; bounds of size at least `inf / 2` are infinite. -/
def RespectsBounds (inf : K) (b : K × K) (v : K) : Prop := (-(inf / 2) < b.1 → b.1 ≤ v) ∧ (b.2 < inf / 2 → v ≤ b.2)

/-- First order conditions in the form used by the solver: for the objective `g` which is minimised. -/
def StationaryMin (n m : Nat) (g : Nat → K) (J : Nat → Nat → K) (y z : Nat → K) : Prop :=
  ∀ j < n, g j + ∑ i ∈ range m, y i * J i j + z j = 0

/-- The multipliers as AMPL understands them: the gradient of the objective, as written by the user, is a combination of the gradients of the
constraints, up to the bounds on the variables. -/
def StationaryAmpl (n m : Nat) (g : Nat → K) (J : Nat → Nat → K) (y z : Nat → K) : Prop :=
  ∀ j < n, g j = ∑ i ∈ range m, y i * J i j + z j

end Sleqp

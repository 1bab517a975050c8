import Verif.Model.FixedVar
import Verif.Spec.Lsq
import Verif.Spec.Mat

/-! Specification of user functions: what correct callbacks deliver. -/

namespace Sleqp
open Finset
variable {P K : Type*} [Field K] [LinearOrder K]

/-- the destination matrix is filled with the entries `f` -/
structure MatFills (dest : Mat K) (f : Nat → Nat → K) (m : Mat K) : Prop where
  wf : m.WF
  rows : m.numRows = dest.numRows
  cols : m.numCols = dest.numCols
  val : ∀ i < m.numRows, ∀ j < m.numCols, m.value i j = f i j

/-- The callbacks are correct: at every admissible point they deliver the value `f`, the gradient `g`, constraint values `c`,
Jacobian `J` and products with the Hessian of the Lagrangian `H p y`, given an empty destination of the right
dimension with room for `cg`, `cc`, `cj`, `ch` entries. -/
structure FuncSpec (u : FuncUser P K) (ok : P → Prop) (f : P → K) (g : P → Nat → K) (c : P → Nat → K)
    (J : P → Nat → Nat → K) (H : P → (Nat → K) → Nat → Nat → K) (cg cc cj ch : Nat) : Prop where
  objVal : ∀ p, ok p → u.objVal p = some (f p)
  objGrad : ∀ p dest, ok p → dest.dim = u.numVars → dest.ents = [] → cg ≤ dest.cap →
    ∃ v, u.objGrad p dest = some v ∧ Fills dest (g p) v
  consVal : ∀ p dest, ok p → dest.dim = u.numCons → dest.ents = [] → cc ≤ dest.cap →
    ∃ v, u.consVal p dest = some v ∧ Fills dest (c p) v
  consJac : ∀ p dest, ok p → dest.WF → dest.numRows = u.numCons → dest.numCols = u.numVars → dest.nnz = 0 →
    cj ≤ dest.cap → ∃ m, u.consJac p dest = some m ∧ MatFills dest (J p) m
  hessProd : ∀ p d y dest, ok p → d.WF → d.dim = u.numVars → y.WF → y.dim = u.numCons → dest.dim = u.numVars →
    dest.ents = [] → ch ≤ dest.cap → ∃ v, u.hessProd p d y dest = some v ∧
      Fills dest (fun j => ∑ k ∈ range u.numVars, H p y.value j k * d.value k) v

end Sleqp

import Verif.Model.Lsq
import Verif.Spec.Vec
import Mathlib.Algebra.BigOperators.Group.Finset.Basic

/-! Specification vocabulary for least-squares functions. -/

namespace Sleqp
open Finset
variable {P K : Type*} [Field K] [LinearOrder K]

/-- The destination vector is filled: well formed, of the same dimension, no less
capacity, and holding the components `f`. -/
structure Fills (dest : Vec K) (f : Nat → K) (v : Vec K) : Prop where
  wf : v.WF
  dim : v.dim = dest.dim
  cap : dest.cap ≤ v.cap
  val : ∀ i < v.dim, v.value i = f i

/-- The user's callbacks are correct: at every admissible point `p` they deliver the residual `r p`
and products with the Jacobian `J p` and its transpose, given an empty vector of
the right dimension with room for `cr`, `cf`, `ca` entries respectively. -/
structure LsqSpec (u : LsqUser P K) (ok : P → Prop) (r : P → Nat → K) (J : P → Nat → Nat → K)
    (cr cf ca : Nat) : Prop where
  resid : ∀ p dest, ok p → dest.dim = u.numRes → dest.ents = [] → cr ≤ dest.cap →
    ∃ v, u.resid p dest = some v ∧ Fills dest (r p) v
  fwd : ∀ p d dest, ok p → d.WF → d.dim = u.numVars → dest.dim = u.numRes → dest.ents = [] →
    cf ≤ dest.cap → ∃ v, u.fwd p d dest = some v ∧
      Fills dest (fun i => ∑ j ∈ range u.numVars, J p i j * d.value j) v
  adj : ∀ p y dest, ok p → y.WF → y.dim = u.numRes → dest.dim = u.numVars → dest.ents = [] →
    ca ≤ dest.cap → ∃ v, u.adj p y dest = some v ∧
      Fills dest (fun j => ∑ i ∈ range u.numRes, J p i j * y.value i) v

/-- the point given to the latest `set_value` of a history -/
def latestPoint (p0 : P) : List (Lsq.Op P K) → P
  | [] => p0
  | .setValue p :: os => latestPoint p os
  | _ :: os => latestPoint p0 os

/-- value of the quadratic form `|J d|² + lm |d|²` -/
def gaussNewtonForm (m n : Nat) (J : Nat → Nat → K) (lm : K) (d : Nat → K) : K :=
  ∑ i ∈ range m, (∑ j ∈ range n, J i j * d j) ^ 2 + lm * ∑ j ∈ range n, d j ^ 2

end Sleqp

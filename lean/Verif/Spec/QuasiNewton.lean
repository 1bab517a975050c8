import Verif.Spec.Bfgs
import Verif.Model.Bfgs

/-! Specification of block-diagonal quasi-Newton models. -/

namespace Sleqp
open Matrix

variable {K : Type*} [Field K] [LinearOrder K]

/-- the part of a vector belonging to the block of dimension `m` at offset `off` -/
def part (off m : Nat) (v : Vec K) : Fin m → K := fun j => v.value (off + j)

/-- the pairs a block sees: the parts of all pairs since the latest reset whose step does
not vanish (up to `tol`) on the block -/
def blockHistory (tol : K) (off m : Nat) (acc : List ((Fin m → K) × (Fin m → K))) :
    List (BfgsBlock.Op K) → List ((Fin m → K) × (Fin m → K))
  | [] => acc
  | .push s y :: ops =>
    blockHistory tol off m
      (if |part off m s ⬝ᵥ part off m s| ≤ tol then acc else acc ++ [(part off m s, part off m y)]) ops
  | .reset :: ops => blockHistory tol off m [] ops

/-- offsets and dimensions of consecutive blocks -/
def offsets : Nat → List Nat → List (Nat × Nat)
  | _, [] => []
  | off, m :: ms => (off, m) :: offsets (off + m) ms

end Sleqp

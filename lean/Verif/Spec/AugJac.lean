import Verif.Model.AugJac
import Verif.Spec.Mat
import Verif.Spec.WorkingSet
import Mathlib.Algebra.BigOperators.Ring.Finset
import Mathlib.Algebra.Order.Field.Basic

/-!
Specification of the linear algebra with the working set: the matrix `A` of the gradients of
the active entries, and the three problems to be solved with it.
-/

namespace Sleqp
open Finset
variable {K : Type*} [Field K] [LinearOrder K]

/-- gradient of an active entry: a row of the Jacobian for a constraint, a unit vector for a
variable -/
def WEntry.gradient (e : WEntry) (J : Nat → Nat → K) (j : Nat) : K :=
  if e.constraint then J e.index j else if e.index = j then 1 else 0

/-- the matrix of the working set: row `k` is the gradient of entry `k` -/
def workMat (l : List WEntry) (J : Nat → Nat → K) (k j : Nat) : K := (l[k]?).elim 0 fun e => e.gradient J j

/-- `x` is the vector of smallest Euclidean norm with `A x = b`, for `A` of size `s × n` -/
def IsMinNorm (n s : Nat) (A : Nat → Nat → K) (b x : Nat → K) : Prop :=
  (∀ k < s, ∑ j ∈ range n, A k j * x j = b k) ∧
    ∀ y : Nat → K, (∀ k < s, ∑ j ∈ range n, A k j * y j = b k) → ∑ j ∈ range n, x j ^ 2 ≤ ∑ j ∈ range n, y j ^ 2

/-- `y` minimises the Euclidean norm of `Aᵀ y - g` -/
def IsLeastSquares (n s : Nat) (A : Nat → Nat → K) (g y : Nat → K) : Prop :=
  ∀ y' : Nat → K, ∑ j ∈ range n, (∑ k ∈ range s, A k j * y k - g j) ^ 2 ≤
    ∑ j ∈ range n, (∑ k ∈ range s, A k j * y' k - g j) ^ 2

/-- `p` is the point of the null space of `A` closest to `g` -/
def IsProjection (n s : Nat) (A : Nat → Nat → K) (g p : Nat → K) : Prop :=
  (∀ k < s, ∑ j ∈ range n, A k j * p j = 0) ∧
    ∀ z : Nat → K, (∀ k < s, ∑ j ∈ range n, A k j * z j = 0) →
      ∑ j ∈ range n, (g j - p j) ^ 2 ≤ ∑ j ∈ range n, (g j - z j) ^ 2

/-- entry of the matrix a factorization reads: if it reads the lower triangle only, the entries
above the diagonal are the mirrored ones -/
def Fact.entry (F : Fact K) (M : Mat K) (i j : Nat) : K :=
  if F.lower = true ∧ i < j then M.value j i else M.value i j

/-- every solution a factorization returns solves the system with the square matrix given -/
def Fact.Correct (F : Fact K) : Prop :=
  ∀ (M : Mat K) (b : Vec K) (z : Nat → K), M.WF → M.numRows = M.numCols → b.WF → b.dim = M.numRows →
    F.solve M b = some z → ∀ i < M.numRows, ∑ j ∈ range M.numCols, F.entry M i j * z j = b.value i

/-- the augmented matrix: identity, `A` below it, its transpose beside it, zero in the corner -/
def augEntry (n : Nat) (A : Nat → Nat → K) (i j : Nat) : K :=
  if i < n then (if j < n then (if i = j then 1 else 0) else A (j - n) i)
  else if j < n then A (i - n) j else 0

/-- `M` stores the augmented matrix of size `n + s` (its lower triangle only, if `lower`) -/
structure IsAug (lower : Bool) (n s : Nat) (A : Nat → Nat → K) (M : Mat K) : Prop where
  wf : M.WF
  rows : M.numRows = n + s
  cols : M.numCols = n + s
  entry : ∀ i < n + s, ∀ j < n + s,
    (if lower = true ∧ i < j then M.value j i else M.value i j) = augEntry n A i j

/-- `M` stores `A Aᵀ` (its lower triangle only, if `lower`) -/
structure IsNormal (lower : Bool) (n s : Nat) (A : Nat → Nat → K) (M : Mat K) : Prop where
  wf : M.WF
  rows : M.numRows = s
  cols : M.numCols = s
  entry : ∀ i < s, ∀ j < s,
    (if lower = true ∧ i < j then M.value j i else M.value i j) = ∑ t ∈ range n, A i t * A j t

end Sleqp

import Verif.Model.Python
import Verif.Spec.Mat
import Verif.Spec.Mex

/-! What the conversions from Python have to achieve. -/

namespace Sleqp
variable {V : Type*}

/-- the entry of a matrix given from Python (for a sparse one that of the first stored element with the indices) -/
def PyMat.get (zero : V) : PyMat V → Nat → Nat → V
  | .dense _ _ entry, i, j => entry i j
  | .csc s, i, j => (at? (s.col j) i).getD zero

/-- in each column the stored rows are in range and increasing; dense matrices are always in order -/
def PyMat.Ordered : PyMat V → Prop
  | .dense .. => True
  | .csc s => ∀ j < s.numCols, Srt (s.col j) ∧ ∀ e ∈ s.col j, e.1 < s.numRows

/-- the vector holds exactly the numbers of the array, at the same positions -/
def PyHolds (zero : V) (a : List V) (v : Vec V) : Prop :=
  v.WF ∧ v.dim = a.length ∧ ∀ i < a.length, (at? v.ents i).getD zero = a.getD i zero

/-- a matrix no part of which has been filled yet (as created or cleared) -/
def Mat.Blank (m : Mat V) : Prop := m.nnz = 0 ∧ ∀ k ≤ m.numCols, m.ptr k = 0

variable {K : Type*} [Field K] [LinearOrder K]

/-- an array of `n` bounds, none of them `bad` or NaN -/
def BoundArr (n : Nat) (bad : Ext K) (l : List (Ext K)) : Prop := l.length = n ∧ .nan ∉ l ∧ bad ∉ l

end Sleqp

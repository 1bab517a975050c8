import Verif.Model.Dump
import Verif.Spec.Mat

/-!
When does a file represent a matrix?
-/

namespace Sleqp

variable {K : Type*} [Field K] [LinearOrder K]

/-- What a reader of the coordinate format relies on: the number of lines is as announced, rows and
columns count from one and are in range, no position occurs twice. -/
structure MMFile.Proper (f : MMFile K) : Prop where
  count : f.lines.length = f.count
  inRange : ∀ e ∈ f.lines, 1 ≤ e.1 ∧ e.1 ≤ f.numRows ∧ 1 ≤ e.2.1 ∧ e.2.1 ≤ f.numCols
  distinct : f.lines.Pairwise fun a b => ¬ (a.1 = b.1 ∧ a.2.1 = b.2.1)

/-- The value at row `i` and column `j`, counted from zero, read from a file: that on the line for
this position; zero if there is none. -/
def MMFile.Value (f : MMFile K) (i j : Nat) (y : K) : Prop :=
  (i + 1, j + 1, y) ∈ f.lines ∨ (y = 0 ∧ ∀ x, (i + 1, j + 1, x) ∉ f.lines)

end Sleqp

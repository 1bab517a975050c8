import Verif.Spec.LpBackend

/-!
Specification for C135: values and multipliers which certify that a point solves a linear program.
-/

namespace Sleqp
open Finset
variable {K : Type*} [Field K] [LinearOrder K]

/-- `x` is feasible with objective `obj`, the gradient of the objective is the combination of rows with multipliers `y` and columns with multipliers `z`,
positive multipliers belong to lower and negative ones to upper bounds that are attained; bounds of absolute value at least `inf` do not count -/
structure LpCertified (inf : K) (lp : LpArrays K) (obj : K) (x y z : Nat → K) : Prop where
  feas : LpFeasible inf lp x
  val : obj = lp.cost x
  stat : ∀ j < lp.numVars, lp.obj j = ∑ i ∈ range lp.numCons, lp.coeffs.value i j * y i + z j
  varPos : ∀ j < lp.numVars, 0 < z j → -inf < lp.varsLb j ∧ x j = lp.varsLb j
  varNeg : ∀ j < lp.numVars, z j < 0 → lp.varsUb j < inf ∧ x j = lp.varsUb j
  consPos : ∀ i < lp.numCons, 0 < y i → -inf < lp.consLb i ∧ lp.row x i = lp.consLb i
  consNeg : ∀ i < lp.numCons, y i < 0 → lp.consUb i < inf ∧ lp.row x i = lp.consUb i

/-- the same for the program held by HiGHS or SoPlex -/
structure LibLp.Certified (n m : Nat) (l : LibLp K) (obj : K) (x y z : Nat → K) : Prop where
  feas : l.Feasible n m x
  val : obj = l.cost n x
  stat : ∀ j < n, l.obj j = ∑ i ∈ range m, l.a i j * y i + z j
  colPos : ∀ j < n, 0 < z j → l.colLb j = some (x j)
  colNeg : ∀ j < n, z j < 0 → l.colUb j = some (x j)
  rowPos : ∀ i < m, 0 < y i → l.rowLb i = some (∑ j ∈ range n, l.a i j * x j)
  rowNeg : ∀ i < m, y i < 0 → l.rowUb i = some (∑ j ∈ range n, l.a i j * x j)

/-- the same for the program held by Gurobi, all of whose rows are equations -/
structure GurobiLpi.Certified (inf : K) (s : GurobiLpi K) (obj : K) (x y z : Nat → K) : Prop where
  feas : s.Feasible inf x
  val : obj = s.cost x
  stat : ∀ c < s.numCols + s.numRows, s.obj c = ∑ i ∈ range s.numRows, s.a i c * y i + z c
  pos : ∀ c < s.numCols + s.numRows, 0 < z c → -inf < s.lb c ∧ x c = s.lb c
  neg : ∀ c < s.numCols + s.numRows, z c < 0 → s.ub c < inf ∧ x c = s.ub c

end Sleqp

import Mathlib.Algebra.Order.Field.Basic
import Mathlib.Algebra.Order.AbsoluteValue.Basic

/-!
Model of `/repo/src/main/cmp.c`: comparisons with a relative tolerance.

`double` is an arbitrary linearly ordered field `K` (exact arithmetic, no
rounding, no NaN; NaN is treated in `Verif.Model.Ext`).
`SLEQP_MAX(a,b) = a > b ? a : b`, `SLEQP_MIN`, `SLEQP_ABS` (`pub_types.h`) are
`max`, `min`, `|·|` on a linear order.
-/

namespace Sleqp

variable {K : Type*} [Field K] [LinearOrder K]

/-- `rel_diff`, cmp.c:7-17: `(x - y) / max(max(|x|, |y|), 1)`. -/
def relDiff (x y : K) : K := (x - y) / max (max |x| |y|) 1

/-- `sleqp_is_eq`, cmp.c:42-47. -/
def isEq (x y eps : K) : Bool := decide (|relDiff x y| ≤ eps)

/-- `sleqp_is_lt`, cmp.c:49-53. -/
def isLt (x y eps : K) : Bool := decide (relDiff x y < -eps)

/-- `sleqp_is_gt`, cmp.c:55-59. -/
def isGt (x y eps : K) : Bool := decide (relDiff x y > eps)

/-- `sleqp_is_leq`, cmp.c:61-65. -/
def isLeq (x y eps : K) : Bool := decide (relDiff x y ≤ eps)

/-- `sleqp_is_geq`, cmp.c:67-71. -/
def isGeq (x y eps : K) : Bool := decide (relDiff x y ≥ -eps)

/-- `sleqp_is_neg`, cmp.c:76-80. -/
def isNeg (x eps : K) : Bool := decide (x < -eps)

/-- `sleqp_is_pos`, cmp.c:82-86. -/
def isPos (x eps : K) : Bool := decide (x > eps)

/-- `sleqp_is_zero`, cmp.c:88-92. -/
def isZero (x eps : K) : Bool := decide (|x| ≤ eps)

/-- `sleqp_is_infinite`, cmp.c:25-34, on non-NaN values; `inf` stands for
`sleqp_infinity()` (cmp.c:20-23, the constant `1e100`). -/
def isInfinite (inf v : K) : Bool := decide (v ≥ inf / 2)

/-- `sleqp_is_finite`, cmp.c:36-40, on non-NaN values. -/
def isFinite (inf v : K) : Bool := !isInfinite inf |v|

end Sleqp

import Verif.Model.Scale
import Mathlib.Algebra.Order.Round
import Mathlib.Data.Int.Log
import Mathlib.Data.Rat.Floor

/-!
Model of the functions which write vectors and matrices to files: `sleqp_mat_dump`,
`sleqp_vec_dump`, `sleqp_vec_fprintf` (for `sleqp_mat_fprintf` see `Model/MatPrint`).

A file is modelled by its lines, a line by the numbers on it.  A decimal numeral is identified with
its value; a number printed with a conversion of `printf` is the number rounded to the digits
printed (which of two equally close numerals is taken is irrelevant here).  Failures to open the file
are left out.
-/

namespace Sleqp

variable {K : Type*} [Field K] [LinearOrder K] [FloorRing K]

/-- the numeral printed by `%f`: six digits after the decimal point -/
def printF (x : K) : K := (round (x * 10 ^ 6) : K) / 10 ^ 6

/-- the numeral printed by `%.14e`: one digit before and 14 digits after the decimal point, and an
exponent -/
def printE14 (x : K) : K :=
  if x = 0 then 0
  else (round (x * 10 ^ (14 - Int.log 10 |x|)) : K) * 10 ^ (Int.log 10 |x| - 14)

/-- A file in the coordinate format of the Matrix Market: the line with the sizes, then lines with
row, column and value. -/
structure MMFile (K : Type*) where
  numRows : Nat
  numCols : Nat
  count : Nat
  lines : List (Nat × Nat × K)

/-- Body of the loop in `sleqp_mat_dump`, sparse/mat.c:695-722: state is the current column and the lines
written; reading the column pointers past their end is `none`. -/
def Mat.dumpBody (m : Mat K) (s : Nat × List (Nat × Nat × K)) (index : Nat) : Option (Nat × List (Nat × Nat × K)) :=
  (advanceCol m index (m.numCols - s.1) s.1).map fun c => (c, s.2 ++ [(m.row index + 1, c + 1, printF (m.val index))])

/-- `sleqp_mat_dump`, sparse/mat.c:695-722 -/
def Mat.dump (m : Mat K) : Option (MMFile K) :=
  ((List.range m.nnz).foldlM m.dumpBody (0, [])).map fun s => ⟨m.numRows, m.numCols, m.nnz, s.2⟩

/-- The loop of `sleqp_vec_dump`, sparse/vec.c:675-700: `n` lines from index `i` on, the entries left are
`l`. -/
def dumpLines : Nat → Nat → List (Nat × K) → List K
  | 0, _, _ => []
  | n + 1, i, [] => 0 :: dumpLines n (i + 1) []
  | n + 1, i, e :: l => if e.1 = i then printE14 e.2 :: dumpLines n (i + 1) l else 0 :: dumpLines n (i + 1) (e :: l)

/-- `sleqp_vec_dump`, sparse/vec.c:675-700: the numbers, one on each line -/
def Vec.dump (v : Vec K) : List K := dumpLines v.dim 0 v.ents

/-- `sleqp_vec_fprintf`, sparse/vec.c:659-673: dimension, number of entries, and the lines with index and
value -/
def Vec.print (v : Vec K) : Nat × Nat × List (Nat × K) := (v.dim, v.ents.length, v.ents.map fun e => (e.1, printE14 e.2))

end Sleqp

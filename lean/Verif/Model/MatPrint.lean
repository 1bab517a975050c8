import Verif.Model.Dump

/-!
Model of the function which prints matrices in readable form, `/repo/src/main/sparse/mat.c`.  Files, lines and numerals are those of `Model/Dump`.
-/

namespace Sleqp

variable {K : Type*} [Field K] [LinearOrder K] [FloorRing K]

/-- the numeral printed by `%e`: one digit before and six digits after the decimal point, and an exponent -/
def printE6 (x : K) : K :=
  if x = 0 then 0
  else (round (x * 10 ^ (6 - Int.log 10 |x|)) : K) * 10 ^ (Int.log 10 |x| - 6)

/-- Body of the loop in `sleqp_mat_fprintf`, sparse/mat.c:664-693: state is the current column and the lines with row, column and value; reading
the column pointers past their end and failed assertions are `none`. -/
def Mat.printBody (m : Mat K) (s : Nat × List (Nat × Nat × K)) (index : Nat) : Option (Nat × List (Nat × Nat × K)) :=
  (advanceCol m index (m.numCols - s.1) s.1).bind fun c =>
    if m.ptr c ≤ index ∧ index < m.ptr (c + 1) then some (c, s.2 ++ [(m.row index, c, printE6 (m.val index))]) else none

/-- `sleqp_mat_fprintf`, sparse/mat.c:664-693: rows, columns, number of entries and the lines -/
def Mat.print (m : Mat K) : Option (Nat × Nat × Nat × List (Nat × Nat × K)) :=
  ((List.range m.nnz).foldlM m.printBody (0, [])).map fun s => (m.numRows, m.numCols, m.nnz, s.2)

end Sleqp

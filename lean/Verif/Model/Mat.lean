import Verif.Model.Vec
import Mathlib.Logic.Function.Basic

/-!
Model of `/repo/src/main/sparse/mat.c`: sparse matrices in compressed column
format.

The three arrays are total functions `Nat → _`: everything outside the part
written by the program (uninitialised or stale memory) is an arbitrary value, so
the theorems hold whatever that memory contains.  Writing past the capacity of the
entry arrays (an assert in the C code) is the outcome `none`.
-/

namespace Sleqp

/-- `struct SleqpMat`, sparse/mat.c:11-25 (`refcount` omitted). -/
structure Mat (K : Type*) where
  numRows : Nat
  numCols : Nat
  nnz : Nat
  cap : Nat
  /-- `cols` -/
  ptr : Nat → Nat
  /-- `rows` -/
  row : Nat → Nat
  /-- `data` -/
  val : Nat → K

/-- overwrite one cell of an array -/
def setAt {α : Type*} (f : Nat → α) (i : Nat) (x : α) : Nat → α := fun k => if k = i then x else f k

namespace Mat

section Structural
variable {K : Type*}

/-- The entries visited by `for (k = cols[j]; k < cols[j+1]; ++k)`. -/
def col (m : Mat K) (j : Nat) : List (Nat × K) :=
  (List.range' (m.ptr j) (m.ptr (j + 1) - m.ptr j)).map fun k => (m.row k, m.val k)

/-- `sleqp_mat_create`, sparse/mat.c:27-54; `row`/`val` are the uninitialised arrays. -/
def create (rows cols cap : Nat) (row : Nat → Nat) (val : Nat → K) : Mat K :=
  ⟨rows, cols, 0, cap, fun _ => 0, row, val⟩

/-- `sleqp_mat_reserve`, sparse/mat.c:56-72. -/
def reserve (m : Mat K) (n : Nat) : Mat K := { m with cap := max m.cap n }

/-- `sleqp_mat_resize`, sparse/mat.c:74-103. -/
def resize (m : Mat K) (rows cols : Nat) : Mat K :=
  if m.numCols < cols then
    let p0 := if m.numCols = 0 then setAt m.ptr 0 0 else m.ptr
    { m with
      numRows := rows, numCols := cols,
      ptr := fun k => if m.numCols < k ∧ k ≤ cols then p0 m.numCols else p0 k }
  else if m.numCols > cols then
    { m with numRows := rows, numCols := cols, nnz := m.ptr cols }
  else { m with numRows := rows }

/-- `sleqp_mat_clear`, sparse/mat.c:651-662. -/
def clear (m : Mat K) : Mat K :=
  { m with nnz := 0, ptr := fun k => if k ≤ m.numCols then 0 else m.ptr k }

/-- `sleqp_mat_push`, sparse/mat.c:178-191. -/
def push (m : Mat K) (r j : Nat) (x : K) : Option (Mat K) :=
  if m.nnz < m.cap ∧ r < m.numRows ∧ j < m.numCols then
    some { m with
      val := setAt m.val m.nnz x
      row := setAt m.row m.nnz r
      ptr := setAt m.ptr (j + 1) (m.ptr (j + 1) + 1)
      nnz := m.nnz + 1 }
  else none

/-- `sleqp_mat_push_col`, sparse/mat.c:217-225. -/
def pushCol (m : Mat K) (j : Nat) : Option (Mat K) :=
  if j < m.numCols then some { m with ptr := setAt m.ptr (j + 1) (m.ptr j) } else none

/-- a loop of `sleqp_mat_push` calls into one column -/
def pushAll (m : Mat K) (j : Nat) (l : List (Nat × K)) : Option (Mat K) :=
  l.foldlM (fun m e => m.push e.1 j e.2) m

/-- The assembly loop used all over the code base (e.g. sparse/mat.c:256-277,
514-535): for each column `push_col` followed by the `push` calls of that column;
`j` is the first column. -/
def assembleFrom (m : Mat K) : Nat → List (List (Nat × K)) → Option (Mat K)
  | _, [] => some m
  | j, c :: cs => (m.pushCol j).bind fun m1 => (m1.pushAll j c).bind fun m2 => assembleFrom m2 (j + 1) cs

/-- `sleqp_mat_pop_col`, sparse/mat.c:227-238. -/
def popCol (m : Mat K) (j : Nat) : Option (Mat K) :=
  if j < m.numCols then
    some { m with ptr := setAt m.ptr (j + 1) (m.ptr j), nnz := m.nnz - (m.ptr (j + 1) - m.ptr j) }
  else none

/-- `sleqp_mat_vstack`, sparse/mat.c:240-280. -/
def vstack (first second result : Mat K) : Option (Mat K) :=
  if first.numCols = second.numCols then
    let r := (({ result with nnz := 0 }).resize (first.numRows + second.numRows) first.numCols).reserve
      (first.nnz + second.nnz)
    r.assembleFrom 0 ((List.range first.numCols).map fun j =>
      first.col j ++ (second.col j).map fun e => (first.numRows + e.1, e.2))
  else none

/-- `sleqp_mat_remove_rows`, sparse/mat.c:490-538. -/
def removeRows (source target : Mat K) (rows : List Nat) : Option (Mat K) :=
  if source.numCols = target.numCols ∧ source.numRows = target.numRows + rows.length then
    ((target.reserve source.nnz).clear).assembleFrom 0
      ((List.range source.numCols).map fun j => Vec.removeLoop rows 0 (source.col j))
  else none

/-- The column loop of `sleqp_mat_remove_entries` / `sleqp_mat_remove_cols`,
sparse/mat.c:605-649, 628-646: the columns from `j` on that survive, in order
(`rem` is the rest of the removed indices). -/
def keptCols : List Nat → List Nat → List Nat
  | [], js => js
  | _, [] => []
  | r :: rs, j :: js => if r ≤ j then keptCols rs js else j :: keptCols (r :: rs) js

/-- `sleqp_mat_remove_entries`, sparse/mat.c:540-603. -/
def removeEntries (source target : Mat K) (cols rows : List Nat) : Option (Mat K) :=
  if source.numCols = target.numCols + cols.length ∧
      source.numRows = target.numRows + rows.length then
    ((target.reserve source.nnz).clear).assembleFrom 0
      ((keptCols cols (List.range source.numCols)).map fun j =>
        Vec.removeLoop rows 0 (source.col j))
  else none

/-- `sleqp_mat_remove_cols`, sparse/mat.c:605-649. -/
def removeCols (source target : Mat K) (cols : List Nat) : Option (Mat K) :=
  if source.numCols = target.numCols + cols.length ∧ source.numRows = target.numRows then
    ((target.reserve source.nnz).clear).assembleFrom 0
      ((keptCols cols (List.range source.numCols)).map fun j => source.col j)
  else none

/-- `sleqp_mat_is_valid`, sparse/mat.c:772-821 (sign checks are vacuous on `Nat`). -/
def isValid (m : Mat K) : Bool :=
  decide (m.nnz ≤ m.cap) &&
    (decide (m.nnz = 0) ||
      ((List.range m.numCols).all (fun j =>
          decide (m.ptr j ≤ m.ptr (j + 1)) &&
          (((m.col j).zip (m.col j).tail).all fun p => decide (p.1.1 < p.2.1)) &&
          ((m.col j).all fun e => decide (e.1 < m.numRows))) &&
        decide (m.ptr m.numCols = m.nnz)))

/-- `sleqp_mat_copy`, sparse/mat.c:743-770. -/
def copy (source target : Mat K) : Option (Mat K) :=
  if source.numCols = target.numCols ∧ source.numRows = target.numRows ∧ source.isValid then
    some { target with
      nnz := source.nnz
      cap := max target.cap source.nnz
      ptr := fun k => if k ≤ target.numCols then source.ptr k else target.ptr k
      row := fun k => if k < source.nnz then source.row k else target.row k
      val := fun k => if k < source.nnz then source.val k else target.val k }
  else none

/-- `sleqp_mat_at`, sparse/mat.c:365-380 / `sleqp_mat_col` 390-408: linear search
in the column. -/
def at? (m : Mat K) (i j : Nat) : Option K := Sleqp.at? (m.col j) i

/-- `compute_row_sums`, sparse/mat.c:823-842. -/
def rowSums (m : Mat K) : Nat → Nat :=
  (List.range m.nnz).foldl (fun s k => setAt s (m.row k) (s (m.row k) + 1)) fun _ => 0

/-- Element loop of `fill_transpose` (sparse/mat.c:875-900): state is
(`row_sums`, `target_rows`, `target_data`), one step per source entry
(row, column, value). -/
def transStep (tptr : Nat → Nat) (s : (Nat → Nat) × (Nat → Nat) × (Nat → K)) (e : Nat × Nat × K) :
    (Nat → Nat) × (Nat → Nat) × (Nat → K) :=
  let pos := tptr e.1 + s.1 e.1
  (setAt s.1 e.1 (s.1 e.1 + 1), setAt s.2.1 pos e.2.1, setAt s.2.2 pos e.2.2)

/-- All entries (row, column, value) in the order visited by the double loop
`for col, for k = cols[col] .. cols[col+1]-1`. -/
def entries (m : Mat K) : List (Nat × Nat × K) :=
  (List.range m.numCols).flatMap fun j => (m.col j).map fun e => (e.1, j, e.2)

/-- prefix sums: `matrix_cols[j]` in sparse/mat.c:861-871 -/
def prefixSum (s : Nat → Nat) : Nat → Nat
  | 0 => 0
  | j + 1 => prefixSum s j + s j

/-- `sleqp_mat_trans` (`compute_row_sums`, `fill_transpose`), sparse/mat.c:823-917,
without the final assert. -/
def trans (source target : Mat K) : Mat K :=
  let sums := source.rowSums
  let t := ((target.clear).reserve source.nnz).resize source.numCols source.numRows
  let tptr := fun k => if k ≤ t.numCols then prefixSum sums k else t.ptr k
  let s0 : (Nat → Nat) × (Nat → Nat) × (Nat → K) :=
    ((fun j => if j < t.numCols then 0 else sums j), t.row, t.val)
  let s := source.entries.foldl (transStep tptr) s0
  { t with ptr := tptr, row := s.2.1, val := s.2.2, nnz := source.nnz }

end Structural

section Numeric
variable {K : Type*} [Field K] [LinearOrder K]

/-- `sleqp_mat_scale`, sparse/mat.c:105-121. -/
def scale (m : Mat K) (f : K) : Mat K :=
  if f = 0 then m.clear
  else { m with val := fun k => if k < m.nnz then m.val k * f else m.val k }

/-- `sleqp_mat_value_at`, sparse/mat.c:382-388. -/
def value (m : Mat K) (i j : Nat) : K := valAt (m.col j) i

/-- inner loop of `mult_vec` (sparse/mat.c:301-304) -/
def addCol (res : Nat → K) (f : K) (c : List (Nat × K)) : Nat → K :=
  c.foldl (fun res e => setAt res e.1 (res e.1 + f * e.2)) res

/-- `sleqp_mat_mult_vec`, sparse/mat.c:282-310; the result array is a function
(cells at or above `num_rows` are not part of it). -/
def multVec (m : Mat K) (x : Vec K) : Option (Nat → K) :=
  if m.numCols = x.dim then
    some (x.ents.foldl (fun res e => addCol res e.2 (m.col e.1)) fun _ => 0)
  else none

/-- `sleqp_mat_mult_vec_trans`, sparse/mat.c:312-363. -/
def multVecTrans (m : Mat K) (x : Vec K) (eps : K) (result : Vec K) : Option (Vec K) :=
  if m.numRows = x.dim ∧ m.numCols = result.dim then
    let colSize := ((List.range m.numCols).filter fun j => decide (0 < m.ptr (j + 1) - m.ptr j)).length
    (List.range m.numCols).foldlM (fun r j =>
      let s := Vec.dotList x.ents (m.col j) 0
      if isZero s eps then some r else r.push j s) ((result.clear).reserve colSize)
  else none

/-- one column of `sleqp_mat_eq` (sparse/mat.c:435-484): note that the second test
fires whenever the first cursor is valid, whatever the row indices are. -/
def eqCol (eps : K) : List (Nat × K) → List (Nat × K) → Bool
  | [], [] => true
  | (_, a) :: f, [] => isZero a eps && eqCol eps f []
  | [], (_, b) :: s => isZero b eps && eqCol eps [] s
  | (i, a) :: f, (j, b) :: s =>
    if i = j then isEq a b eps && eqCol eps f s
    else isZero a eps && eqCol eps f ((j, b) :: s)
termination_by f s => f.length + s.length

/-- `sleqp_mat_eq`, sparse/mat.c:429-488. -/
def eq (m n : Mat K) (eps : K) : Option Bool :=
  if m.numRows = n.numRows ∧ m.numCols = n.numCols then
    some ((List.range m.numCols).all fun j => eqCol eps (m.col j) (n.col j))
  else none

end Numeric
end Mat
end Sleqp

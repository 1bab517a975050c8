import Verif.Model.AugJac

/-!
Model of `aug_jac/reduced_aug_jac.c`: the normal equations with the matrix `A Aᵀ`, where `A`
is stored by rows.
-/

namespace Sleqp
variable {K : Type*} [Field K] [LinearOrder K]

/-- the rows of the working set, aug_jac/reduced_aug_jac.c:12-40: `num_rows`, `row_counts`
(offsets after `update_row_counts`), `col_indices`, `values` -/
structure RowSys (K : Type*) where
  size : Nat
  ptr : Nat → Nat
  col : Nat → Nat
  val : Nat → K

/-- the entries of one row -/
def RowSys.row (a : RowSys K) (r : Nat) : List (Nat × K) :=
  (List.range' (a.ptr r) (a.ptr (r + 1) - a.ptr r)).map fun k => (a.col k, a.val k)

/-- the entries visited by the double loops over the Jacobian, with the position of their
constraint; entries of inactive constraints are skipped -/
def activeEntries (w : WSet) (J : Mat K) : List (Nat × Nat × K) :=
  J.entries.filterMap fun e => (w.consIdx e.1).map fun k => (k, e.2.1, e.2.2)

/-- `compute_row_counts_and_nnz`, aug_jac/reduced_aug_jac.c:112-160 -/
def rowCounts (w : WSet) (J : Mat K) : Nat → Nat :=
  (activeEntries w J).foldl (fun s e => setAt s e.1 (s e.1 + 1)) fun i => if i < w.actVars then 1 else 0

/-- one round of the loop over the variables in `fill_system`,
aug_jac/reduced_aug_jac.c:195-259 -/
def fillVar (w : WSet) (c : Nat → Nat) (j : Nat) : Nat → Nat :=
  match w.varIdx j with
  | some k => setAt c k j
  | none => c

/-- `compute_row_counts_and_nnz`, aug_jac/reduced_aug_jac.c:112-160, `update_row_counts`,
aug_jac/reduced_aug_jac.c:175-193 (it also adds up the uninitialised cell behind the counts,
without using the sum), and `fill_system`, aug_jac/reduced_aug_jac.c:195-259: `col0`, `val0` are the arrays before (`reserve_data` makes
them large enough for the entries counted).  The asserts on the positions of constraints are
the condition. -/
def fillSystem (w : WSet) (J : Mat K) (col0 : Nat → Nat) (val0 : Nat → K) : Option (RowSys K) :=
  let size := w.size
  if (activeEntries w J).all (fun e => decide (w.actVars ≤ e.1 ∧ e.1 < size)) then
    let ptr := Mat.prefixSum (rowCounts w J)
    let col1 := (List.range w.numVars).foldl (fillVar w) col0
    let val1 := fun i => if i < w.actVars then 1 else val0 i
    let s := (activeEntries w J).foldl (Mat.transStep ptr) ((fun _ => 0), col1, val1)
    some ⟨size, ptr, s.2.1, s.2.2⟩
  else none

/-- `reserve_more_and_push`, aug_jac/reduced_aug_jac.c:261-280 -/
def pushMore (m : Mat K) (r j : Nat) (x : K) : Option (Mat K) :=
  (if m.nnz = m.cap then m.reserve (min (m.numCols * m.numRows) (2 * m.nnz + 1)) else m).push r j x

/-- the column loops of `compute_matrix_lower`, aug_jac/reduced_aug_jac.c:323-377, and
`compute_matrix_general`, aug_jac/reduced_aug_jac.c:379-413: `cs` are the columns pushed -/
def assembleMore (m : Mat K) : Nat → List (List (Nat × K)) → Option (Mat K)
  | _, [] => some m
  | j, c :: cs => (m.pushCol j).bind fun m1 =>
    (c.foldlM (fun m e => pushMore m e.1 j e.2) m1).bind fun m2 => assembleMore m2 (j + 1) cs

/-- a column of `compute_matrix_lower`, aug_jac/reduced_aug_jac.c:323-377 (`nonzero` is always
true) -/
def lowerCol (a : RowSys K) (actVars j : Nat) : List (Nat × K) :=
  (j, if j < actVars then 1 else (a.row j).foldl (fun s e => s + e.2 * e.2) 0) ::
    (List.range' (j + 1) (a.size - (j + 1))).map fun i => (i, Vec.dotList (a.row i) (a.row j) 0)

/-- a column of `compute_matrix_general`, aug_jac/reduced_aug_jac.c:379-413 -/
def generalCol (a : RowSys K) (j : Nat) : List (Nat × K) :=
  (List.range a.size).map fun i => (i, Vec.dotList (a.row i) (a.row j) 0)

/-- `compute_matrix`, aug_jac/reduced_aug_jac.c:415-430 -/
def normalMatrix (lower : Bool) (a : RowSys K) (actVars : Nat) (m : Mat K) : Option (Mat K) :=
  let m0 := (m.clear).resize a.size a.size
  if lower then
    (assembleMore m0 0 ((List.range a.size).map (lowerCol a actVars))).bind fun M =>
      if M.isLower then some M else none
  else assembleMore m0 0 ((List.range a.size).map (generalCol a))

/-- `AugJacData`, aug_jac/reduced_aug_jac.c:12-40 -/
structure RedAug (K : Type*) where
  cached : Option WSet
  hasFact : Bool
  sys : RowSys K
  matrix : Mat K

/-- `aug_jac_set_iterate`, aug_jac/reduced_aug_jac.c:432-477 -/
def RedAug.setIterate (a : RedAug K) (lower : Bool) (w : WSet) (J : Mat K) : Option (RedAug K) :=
  let rebuild (c : Option WSet) : Option (RedAug K) :=
    (fillSystem w J a.sys.col a.sys.val).bind fun s =>
      (normalMatrix lower s w.actVars a.matrix).map fun m => ⟨c, true, s, m⟩
  match a.cached with
  | none => rebuild none
  | some c =>
    (w.eq c).bind fun e =>
      if e && a.hasFact then some a else (w.copy c).bind fun c' => rebuild (some c')

/-- the index sets of two rows meet: `nonzero` in `compute_product`,
aug_jac/reduced_aug_jac.c:479-533 -/
def rowsMeet (a b : List (Nat × K)) : Bool := a.any fun e => b.any fun f => decide (e.1 = f.1)

/-- `compute_product`, aug_jac/reduced_aug_jac.c:479-533; `product` is the vector `rhs` of the
data, sized by `reserve_rows`. -/
def redProduct (a : RowSys K) (d : Vec K) (product : Vec K) : Option (Vec K) :=
  (List.range a.size).foldlM (fun p r =>
    if rowsMeet (a.row r) d.ents then p.push r (Vec.dotList (a.row r) d.ents 0) else some p)
    ((product.clear).reserve a.size)

/-- `compute_trans_product`, aug_jac/reduced_aug_jac.c:535-563: the array `cache` -/
def redTransProduct (a : RowSys K) (d : Vec K) : Nat → K :=
  d.ents.foldl (fun c e => Mat.addCol c e.2 (a.row e.1)) fun _ => 0

/-- `aug_jac_solve_min_norm`, aug_jac/reduced_aug_jac.c:565-588, for `n` variables; `buf` is
the vector `rhs` of the data. -/
def redMinNorm (F : Fact K) (n : Nat) (a : RowSys K) (M : Mat K) (rhs : Vec K) (zeroEps : K) (buf sol : Vec K) :
    Option (Vec K) :=
  (F.solve M rhs).bind fun z =>
    (factSolution z buf 0 a.size zeroEps).bind fun y =>
      sol.setFromRaw zeroEps ((List.range n).map (redTransProduct a y))

/-- `aug_jac_solve_lsq`, aug_jac/reduced_aug_jac.c:590-609. -/
def redLsq (F : Fact K) (a : RowSys K) (M : Mat K) (rhs : Vec K) (zeroEps : K) (buf sol : Vec K) : Option (Vec K) :=
  (redProduct a rhs buf).bind fun p => (F.solve M p).bind fun z => factSolution z sol 0 a.size zeroEps

/-- `aug_jac_project_nullspace`, aug_jac/reduced_aug_jac.c:611-643; `dir` is the vector
`direction` of the data. -/
def redProject (F : Fact K) (n : Nat) (a : RowSys K) (M : Mat K) (rhs : Vec K) (zeroEps : K) (buf dir sol : Vec K) :
    Option (Vec K) :=
  (redProduct a rhs buf).bind fun p => (F.solve M p).bind fun z =>
    (factSolution z p 0 a.size zeroEps).bind fun y =>
      (dir.setFromRaw zeroEps ((List.range n).map (redTransProduct a y))).bind fun d =>
        Vec.addScaled rhs d 1 (-1) zeroEps sol

end Sleqp

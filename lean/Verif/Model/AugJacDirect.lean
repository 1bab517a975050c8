import Verif.Model.AugJac

/-!
Model of `aug_jac/direct_aug_jac.c`: a QR factorization of the transposed working set matrix.
The factorization behind `fact/fact_qr.h` is a parameter.
-/

namespace Sleqp
variable {K : Type*} [Field K] [LinearOrder K]

/-- A QR factorization, fact/fact_qr.h:8-18: the dense results of the four operations for the
matrix that was set. -/
structure Qr (K : Type*) where
  solveTri : Mat K → Vec K → Nat → K
  solveTriTrans : Mat K → Vec K → Nat → K
  multOrth : Mat K → Vec K → Nat → K
  multOrthTrans : Mat K → Vec K → Nat → K

/-- the result stored by the back end, fact/fact_spqr.c:219-323, in a vector of dimension `d`;
the asserts of fact/fact_qr.c:73-120 on both dimensions are the condition -/
def qrResult (x : Nat → K) (d : Nat) (b out : Vec K) : Option (Vec K) :=
  if b.dim = d ∧ out.dim = d then out.setFromRaw 0 ((List.range d).map x) else none

/-! ### The working Jacobian -/

/-- rows of inactive constraints, aug_jac/direct_aug_jac.c:56-66 -/
def removedRows (w : WSet) (m : Nat) : List Nat :=
  (List.range m).filter fun i => decide (w.consState i = .inactive)

/-- the inner loop of `compute_working_jac`, aug_jac/direct_aug_jac.c:45-127, over the `k`
entries from `first` on, last one first: row and value arrays -/
def shiftDown (offset add first : Nat) : Nat → (Nat → Nat) × (Nat → K) → (Nat → Nat) × (Nat → K)
  | 0, s => s
  | k + 1, s => shiftDown offset add first k
      (setAt s.1 (first + k + offset) (s.1 (first + k) + add), setAt s.2 (first + k + offset) (s.2 (first + k)))

/-- the arrays of the working Jacobian in the loop over the columns -/
structure ShiftState (K : Type*) where
  offset : Nat
  ptr : Nat → Nat
  row : Nat → Nat
  val : Nat → K

/-- one column of the loop, aug_jac/direct_aug_jac.c:96-112: the entries are moved, and the unit
entry of an active variable is stored -/
def shiftCol (w : WSet) (add col : Nat) (s : ShiftState K) : ShiftState K :=
  let first := s.ptr col
  let a := shiftDown s.offset add first (s.ptr (col + 1) - first) (s.row, s.val)
  let ptr := setAt s.ptr (col + 1) (s.ptr (col + 1) + s.offset)
  if w.varState col ≠ .inactive then
    ⟨s.offset - 1, ptr, setAt a.1 (first + s.offset - 1) (s.offset - 1), setAt a.2 (first + s.offset - 1) 1⟩
  else ⟨s.offset, ptr, a.1, a.2⟩

/-- the loop over the columns, last one first, left when `offset` has reached zero,
aug_jac/direct_aug_jac.c:94-117 -/
def shiftCols (w : WSet) (add : Nat) : Nat → ShiftState K → ShiftState K
  | 0, s => s
  | c + 1, s =>
    let s' := shiftCol w add c s
    if w.varState c ≠ .inactive ∧ s'.offset = 0 then s' else shiftCols w add c s'

/-- `update_dims`, aug_jac/direct_aug_jac.c:22-43, on the working Jacobian -/
def directDims (w : WSet) (J W : Mat K) : Mat K := W.resize w.actCons J.numCols

/-- `compute_working_jac`, aug_jac/direct_aug_jac.c:45-127; the room for the unit entries is
reserved before they are stored. -/
def workingJac (w : WSet) (J W : Mat K) : Option (Mat K) :=
  (J.removeRows (directDims w J W) (removedRows w J.numRows)).bind fun W0 =>
    if w.actVars = 0 then some W0
    else
      let nnz := W0.nnz + w.actVars
      let W1 := (W0.reserve nnz).resize w.size J.numCols
      let s := shiftCols w w.actVars J.numCols ⟨w.actVars, W1.ptr, W1.row, W1.val⟩
      if s.offset = 0 then
        let W2 : Mat K := { W1 with ptr := s.ptr, row := s.row, val := s.val, nnz := nnz }
        if W2.isValid then some W2 else none
      else none

/-- `direct_aug_jac_set_iterate`, aug_jac/direct_aug_jac.c:129-152, up to the call of the
factorization: the working Jacobian and its transpose.  `row_sums` has one cell per constraint
(aug_jac/direct_aug_jac.c:34-35), `sleqp_mat_trans` uses one per row of the working Jacobian. -/
def directSet (w : WSet) (J W T : Mat K) : Option (Mat K × Mat K) :=
  (workingJac w J W).bind fun W' =>
    if W'.numRows ≤ J.numRows then
      let T' := Mat.trans W' T
      if T'.isValid ∧ T'.numCols ≤ T'.numRows then some (W', T') else none
    else none

/-! ### The services -/

/-- `direct_aug_jac_solve_min_norm`, aug_jac/direct_aug_jac.c:154-176; `product` is the vector of
the data -/
def directMinNorm (F : Qr K) (T : Mat K) (rhs product sol : Vec K) : Option (Vec K) :=
  (qrResult (F.solveTriTrans T rhs) T.numCols rhs ((product.clear).resize T.numCols)).bind fun p =>
    let p' := p.resize T.numRows
    qrResult (F.multOrth T p') T.numRows p' sol

/-- `direct_aug_jac_solve_lsq`, aug_jac/direct_aug_jac.c:178-201 -/
def directLsq (F : Qr K) (T : Mat K) (rhs product sol : Vec K) : Option (Vec K) :=
  if rhs.dim = T.numRows then
    (qrResult (F.multOrthTrans T rhs) T.numRows rhs (product.resize T.numRows)).bind fun p =>
      let p' := p.resize T.numCols
      qrResult (F.solveTri T p') T.numCols p' sol
  else none

/-- `direct_aug_jac_project_nullspace`, aug_jac/direct_aug_jac.c:203-244 -/
def directProject (F : Qr K) (T : Mat K) (rhs product sol : Vec K) : Option (Vec K) :=
  (qrResult (F.multOrthTrans T rhs) T.numRows rhs { product with dim := T.numRows }).bind fun p =>
    let p' : Vec K := { p with ents := p.ents.dropWhile fun e => decide (e.1 < T.numCols) }
    qrResult (F.multOrth T p') T.numRows p' sol

end Sleqp

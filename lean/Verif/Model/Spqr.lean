import Verif.Model.FactBackend
import Verif.Model.AugJacDirect

/-!
Model of `fact/fact_spqr.c`: SPQR as a factorization of square matrices and as the QR factorization
behind `fact/fact_qr.c`.  The library is a parameter, as in `Model/FactBackend.lean`; its functions
return null (`none`) on errors.
-/

namespace Sleqp
variable {K : Type*} [Field K] [LinearOrder K]

/-- the functions behind `SleqpQRCallbacks`, fact/fact_qr_types.h: the number given to an operation
is the dimension of the vector which takes the result, of which the dense values are returned -/
structure QrBackend (σ : Type*) (K : Type*) where
  init : σ
  setMatrix : σ → Mat K → Call σ
  solveTri : σ → Vec K → Nat → Call (σ × (Nat → K))
  solveTriTrans : σ → Vec K → Nat → Call (σ × (Nat → K))
  multOrth : σ → Vec K → Nat → Call (σ × (Nat → K))
  multOrthTrans : σ → Vec K → Nat → Call (σ × (Nat → K))

/-- the result of an operation, if there is one -/
def Call.result {σ : Type*} : Call (σ × (Nat → K)) → Nat → K
  | .okay s => s.2
  | _ => fun _ => 0

/-- the operations in a given state, as they are used by the augmented Jacobian: dimensions as
asserted in fact/fact_qr.c:73-120 -/
def QrBackend.qr {σ : Type*} (B : QrBackend σ K) (s : σ) : Qr K :=
  ⟨fun T b => (B.solveTri s b T.numCols).result, fun T b => (B.solveTriTrans s b T.numCols).result,
    fun T b => (B.multOrth s b T.numRows).result, fun T b => (B.multOrthTrans s b T.numRows).result⟩

/-- the systems of `SuiteSparseQR_C_solve` used: `R x = b`, `R Eᵀ x = b`, `Rᵀ x = b` -/
inductive SpqrSystem
  | rx | retx | rtx

/-- `SuiteSparseQR_C_factorize`, `SuiteSparseQR_C_qmult` (transposed or not) and
`SuiteSparseQR_C_solve`.  The number is the number of rows of the dense argument. -/
structure SpqrLib (H K : Type*) where
  factor : CscSys K → Option H
  qmult : Bool → H → Nat → (Nat → K) → Option (Buf K)
  solve : SpqrSystem → H → Nat → (Nat → K) → Option (Buf K)

/-- `SPQRData`, fact/fact_spqr.c:13-28.  `rhs` has its number of rows and its array; `shape` is
`none` before the first matrix; null pointers are `none`; `spare` is unallocated memory. -/
structure Spqr (H K : Type*) where
  shape : Option (Nat × Nat)
  sparse : Option (CholSparse K)
  rhs : Option (Nat × Buf K)
  sol : Option (Buf K)
  handle : Option H
  spare : CholSparse K

namespace Spqr
variable {H : Type*}

/-- `spqr_data_create`, fact/fact_spqr.c:371-388 -/
def create (spare : CholSparse K) : Spqr H K := ⟨none, none, none, none, none, spare⟩

/-- `update_shape`, fact/fact_spqr.c:30-83 -/
def updateShape (s : Spqr H K) (rows cols nnzMax : Nat) : Spqr H K :=
  let size := max rows cols
  let rhs := if s.rhs.map Prod.fst ≠ some size then some (size, ⟨size, fun _ => 0⟩) else s.rhs
  let sparse := match s.sparse with
    | some sp =>
      if s.shape ≠ some (rows, cols) then sp.alloc cols nnzMax
      else if nnzMax > sp.nzmax then sp.realloc nnzMax else sp
    | none => s.spare.alloc cols nnzMax
  { s with rhs := rhs, sparse := some sparse, shape := some (rows, cols) }

/-- `spqr_fact_set_matrix`, fact/fact_spqr.c:85-145; `cholmod_l_check_sparse` is assumed to accept
the matrix -/
def setMatrix (L : SpqrLib H K) (s : Spqr H K) (M : Mat K) : Call (Spqr H K) :=
  if M.numCols ≤ M.numRows then
    let s1 := s.updateShape M.numRows M.numCols M.nnz
    match s1.sparse.bind fun sp => sp.fill M with
    | none => .ub
    | some sp =>
      let h := L.factor ⟨M.numRows, M.numCols, sp.ptr.get, sp.row.get, sp.val.get⟩
      let s2 := { s1 with sparse := some sp, handle := h }
      if h.isNone then .raised s2 else .okay s2
  else .ub

/-- `spqr_set_sol`, fact/fact_spqr.c:169-187: if the library has failed, the old solution stays; the
error code is ignored by all callers -/
def setSol (s : Spqr H K) (x : Option (Buf K)) : Spqr H K :=
  match x with
  | some y => { s with sol := some y }
  | none => s

/-- the common part of the operations: the right-hand side is written, given to the library with
`nrow` rows, and reset.  The factor must not be null, and the array as large as its rows. -/
def withRhs (s : Spqr H K) (b : Vec K) (nrow : Nat) (f : H → (Nat → K) → Option (Buf K)) : Option (Spqr H K) :=
  s.rhs.bind fun r =>
    (r.2.setCache b).bind fun z =>
      s.handle.bind fun h =>
        if nrow ≤ z.size then
          (z.resetCache b).map fun z' => { s with rhs := some (nrow, z') }.setSol (f h z.get)
        else none

/-- the result is copied from the solution, `d` numbers -/
def read (s : Spqr H K) (d : Nat) : Call (Spqr H K × (Nat → K)) :=
  match s.sol with
  | none => .ub
  | some y => if d ≤ y.size then .okay (s, y.get) else .ub

/-- an operation of the QR factorization -/
def op (s : Spqr H K) (b : Vec K) (nrow d : Nat) (f : H → (Nat → K) → Option (Buf K)) : Call (Spqr H K × (Nat → K)) :=
  match s.withRhs b nrow f with
  | none => .ub
  | some s' => s'.read d

/-- `spqr_qr_solve_tri`, fact/fact_spqr.c:219-244 -/
def solveTri (L : SpqrLib H K) (s : Spqr H K) (b : Vec K) (d : Nat) : Call (Spqr H K × (Nat → K)) :=
  match s.shape with
  | none => .ub
  | some p => s.op b p.1 d fun h x => L.solve .rx h p.1 x

/-- `spqr_qr_solve_tri_trans`, fact/fact_spqr.c:246-269 -/
def solveTriTrans (L : SpqrLib H K) (s : Spqr H K) (b : Vec K) (d : Nat) : Call (Spqr H K × (Nat → K)) :=
  s.op b b.dim d fun h x => L.solve .rtx h b.dim x

/-- `spqr_qr_mult_orth`, fact/fact_spqr.c:271-294 -/
def multOrth (L : SpqrLib H K) (s : Spqr H K) (b : Vec K) (d : Nat) : Call (Spqr H K × (Nat → K)) :=
  match s.shape with
  | none => .ub
  | some p => s.op b p.1 d fun h x => L.qmult false h p.1 x

/-- `spqr_qr_mult_orth_trans`, fact/fact_spqr.c:296-323.  Here a null solution is an error, with
the right-hand side left as it is. -/
def multOrthTrans (L : SpqrLib H K) (s : Spqr H K) (b : Vec K) (d : Nat) : Call (Spqr H K × (Nat → K)) :=
  match s.rhs.bind fun r => (r.2.setCache b).bind fun z => s.handle.bind fun h => if b.dim ≤ z.size then some (z, h) else none with
  | none => .ub
  | some (z, h) =>
    let s1 := { s with rhs := some (b.dim, z) }.setSol (L.qmult true h b.dim z.get)
    if s1.sol.isNone then .raised (s1, fun _ => 0)
    else match z.resetCache b with
      | none => .ub
      | some z' => { s1 with rhs := some (b.dim, z') }.read d

/-- `sleqp_fact_spqr_create`, fact/fact_spqr.c:390-412 -/
def qrBackend (L : SpqrLib H K) (spare : CholSparse K) : QrBackend (Spqr H K) K :=
  ⟨create spare, setMatrix L, solveTri L, solveTriTrans L, multOrth L, multOrthTrans L⟩

/-- `spqr_fact_solve`, fact/fact_spqr.c:189-217: if the multiplication fails, the right-hand side
is not reset; if the triangular solve fails, the old solution stays -/
def factSolve (L : SpqrLib H K) (s : Spqr H K) (b : Vec K) : Call (Spqr H K) :=
  match s.rhs.bind fun r => (r.2.setCache b).bind fun z => s.handle.bind fun h => if b.dim ≤ z.size then some (z, h) else none with
  | none => .ub
  | some (z, h) =>
    let s1 : Spqr H K := { s with rhs := some (b.dim, z) }
    match L.qmult true h b.dim z.get with
    | none => .raised s1
    | some y =>
      let s2 := s1.setSol (L.solve .retx h y.size y.get)
      Call.lift ((z.resetCache b).map fun z' => { s2 with rhs := some (b.dim, z') })

/-- `sleqp_fact_create_default`, fact/fact_spqr.c:414-435, with `spqr_fact_sol`,
fact/fact_spqr.c:325-342 -/
def backend (L : SpqrLib H K) (spare : CholSparse K) : Backend (Spqr H K) K :=
  ⟨create spare, setMatrix L, factSolve L, fun s => s.sol.getD ⟨0, fun _ => 0⟩⟩

end Spqr

end Sleqp

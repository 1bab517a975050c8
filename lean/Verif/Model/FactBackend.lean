import Verif.Model.AugJac

/-!
Model of the factorization back ends `fact/fact_lapack.c`, `fact/fact_ma27.c`,
`fact/fact_ma57.c`, `fact/fact_ma86.c`, `fact/fact_ma97.c`, `fact/fact_mumps.c`,
`fact/fact_umfpack.c`, `fact/fact_cholmod.c` and of `fact/hsl_matrix.c`: the arrays they keep,
the system they hand to the library, and what they do with its answer.

The libraries are parameters: functions of the data handed to them.  A read or a write outside of
an allocated array, a null pointer or a failed assert is the outcome `ub`; an error code is the
outcome `raised`, with the state left behind.  Allocations succeed.  Statuses of the libraries are
integers.
-/

namespace Sleqp

/-! ### Arrays and outcomes -/

/-- an allocated array: its size; cells beyond it are of no meaning -/
structure Buf (α : Type*) where
  size : Nat
  get : Nat → α

namespace Buf
variable {α : Type*}

/-- `sleqp_realloc`, pub_mem.h:45-46: the old contents are kept -/
def realloc (b : Buf α) (n : Nat) : Buf α := { b with size := n }

/-- `b[k] = x` -/
def write (b : Buf α) (k : Nat) (x : α) : Option (Buf α) :=
  if k < b.size then some { b with get := setAt b.get k x } else none

/-- a loop of assignments -/
def writeAll (b : Buf α) (l : List (Nat × α)) : Option (Buf α) :=
  l.foldlM (fun (b : Buf α) e => b.write e.1 e.2) b

/-- the first `n` cells are filled by a library -/
def fillBy (b : Buf α) (n : Nat) (f : Nat → α) : Buf α :=
  { b with get := fun k => if k < n then f k else b.get k }

end Buf

/-- the outcome of a call: undefined behaviour, an endless loop, an error code or success -/
inductive Call (σ : Type*)
  | ub
  | endless
  | raised (s : σ)
  | okay (s : σ)

/-- `SLEQP_CALL` -/
def Call.andThen {σ : Type*} (c : Call σ) (f : σ → Call σ) : Call σ :=
  match c with
  | .okay s => f s
  | c => c

/-- a step which may fail by undefined behaviour only -/
def Call.lift {σ : Type*} : Option σ → Call σ
  | some s => .okay s
  | none => .ub

/-- the functions behind `SleqpFactCallbacks`, fact/fact_types.h:25-32; `sol` is the array
`solution` copies from -/
structure Backend (σ : Type*) (K : Type*) where
  init : σ
  setMatrix : σ → Mat K → Call σ
  solve : σ → Vec K → Call σ
  sol : σ → Buf K

variable {K : Type*} [Field K] [LinearOrder K]

/-- `sleqp_vec_to_raw`, sparse/vec.c:105-119, into an array -/
def Buf.load (b : Buf K) (v : Vec K) : Option (Buf K) :=
  b.writeAll (v.toRaw.zipIdx.map fun p => (p.2, p.1))

/-- `sleqp_fact_set_matrix`, fact/fact.c:59-75 (the assert of a debug build included),
`sleqp_fact_solve`, fact/fact.c:83-89, and `sleqp_fact_solution`, fact/fact.c:91-102, on a fresh
back end -/
def Backend.fact {σ : Type*} (B : Backend σ K) (lower : Bool) : Fact K :=
  ⟨lower, fun M b =>
    if lower && !M.isLower then none
    else match B.setMatrix B.init M with
      | .okay s => match B.solve s b with
        | .okay s' => if M.numRows ≤ (B.sol s').size then some (B.sol s').get else none
        | _ => none
      | _ => none⟩

/-! ### Systems, as the libraries read them -/

/-- a symmetric matrix given by triplets (row, column, value), indices from 1 on, duplicates
summed up: MA27, MA57, MUMPS -/
structure CoordSys (K : Type*) where
  dim : Nat
  trip : List (Nat × Nat × K)

/-- a matrix in compressed column format, indices from 0 on: UMFPACK, CHOLMOD, MA86, MA97, SPQR -/
structure CscSys (K : Type*) where
  numRows : Nat
  numCols : Nat
  ptr : Nat → Nat
  row : Nat → Nat
  val : Nat → K

/-- a library which factorizes a system `S` into a factor `H` and solves with it; the numbers are
its statuses -/
structure FactLib (S H K : Type*) where
  factor : S → Int × H
  solve : H → (Nat → K) → Int × (Nat → K)

/-! ### LAPACK -/

/-- `LAPACKData`, fact/fact_lapack.c:21-35 (`ipiv` only by its size) -/
structure Lapack (K : Type*) where
  maxSize : Nat
  rows : Nat
  maxRows : Nat
  values : Buf K
  ipiv : Nat
  sol : Buf K

/-- `dgetrf_` and `dgetrs_`: the factors replace the matrix, the solution the right-hand side -/
structure LapackLib (K : Type*) where
  factor : Nat → (Nat → K) → Int × (Nat → K)
  solve : Nat → (Nat → K) → (Nat → K) → Int × (Nat → K)

namespace Lapack

/-- `lapack_data_create`, fact/fact_lapack.c:37-50; `junk` is uninitialised memory -/
def create (junk : Nat → K) : Lapack K := ⟨0, 0, 0, ⟨0, junk⟩, 0, ⟨0, junk⟩⟩

/-- `store_matrix_values`, fact/fact_lapack.c:52-73: the assignments in their order -/
def storeValues (M : Mat K) : List (Nat × K) :=
  (colCells M M.numCols).flatMap fun c =>
    [(M.row c.2 * M.numCols + c.1, M.val c.2), (c.1 * M.numCols + M.row c.2, M.val c.2)]

/-- `lapack_set_matrix`, fact/fact_lapack.c:75-123 -/
def setMatrix (L : LapackLib K) (s : Lapack K) (M : Mat K) : Call (Lapack K) :=
  if M.numCols = M.numRows then
    let n := M.numRows
    let s1 := if s.maxSize < n * n then { s with values := s.values.realloc (n * n), maxSize := n * n } else s
    let s2 := if s1.maxRows < n then { s1 with ipiv := n, sol := s1.sol.realloc n, maxRows := n } else s1
    match (s2.values.writeAll ((List.range (n * n)).map fun i => (i, 0))).bind fun v => v.writeAll (storeValues M) with
    | none => .ub
    | some v =>
      if n * n ≤ v.size ∧ n ≤ s2.ipiv then
        let r := L.factor n v.get
        let s3 := { s2 with values := v.fillBy (n * n) r.2, rows := n }
        if r.1 ≠ 0 then .raised s3 else .okay s3
      else .ub
  else .ub

/-- `lapack_solve`, fact/fact_lapack.c:125-154 -/
def solve (L : LapackLib K) (s : Lapack K) (b : Vec K) : Call (Lapack K) :=
  if b.dim = s.rows then
    match s.sol.load b with
    | none => .ub
    | some x =>
      if s.rows * s.rows ≤ s.values.size ∧ s.rows ≤ s.ipiv ∧ s.rows ≤ x.size then
        let r := L.solve s.rows s.values.get x.get
        let s' := { s with sol := x.fillBy s.rows r.2 }
        if r.1 ≠ 0 then .raised s' else .okay s'
      else .ub
  else .ub

/-- `sleqp_fact_lapack_create`, fact/fact_lapack.c:189-211 -/
def backend (L : LapackLib K) (junk : Nat → K) : Backend (Lapack K) K :=
  ⟨create junk, setMatrix L, solve L, fun s => s.sol⟩

end Lapack

/-! ### The matrix of the HSL solvers -/

/-- `HSLMatrix`, fact/hsl_matrix.h:9-19 -/
structure Hsl (K : Type*) where
  dim : Nat
  maxNnz : Nat
  nnz : Nat
  rows : Buf Nat
  cols : Buf Nat
  data : Buf K

namespace Hsl

/-- all fields zero, arrays null -/
def zero (ijunk : Nat → Nat) (junk : Nat → K) : Hsl K := ⟨0, 0, 0, ⟨0, ijunk⟩, ⟨0, ijunk⟩, ⟨0, junk⟩⟩

/-- `hsl_matrix_set`, fact/hsl_matrix.c:9-58 -/
def set (h : Hsl K) (M : Mat K) : Option (Hsl K) :=
  if M.numRows = M.numCols then
    let h1 := if h.maxNnz < M.nnz then
        { h with
          cols := h.cols.realloc M.nnz, rows := h.rows.realloc M.nnz, data := h.data.realloc M.nnz,
          maxNnz := M.nnz }
      else h
    (h1.data.writeAll ((List.range M.nnz).map fun k => (k, M.val k))).bind fun d =>
      (h1.rows.writeAll ((List.range M.nnz).map fun k => (k, M.row k + 1))).bind fun r =>
        (h1.cols.writeAll ((colCells M M.numCols).map fun c => (c.2, c.1 + 1))).map fun c =>
          { h1 with dim := M.numRows, data := d, rows := r, cols := c, nnz := M.nnz }
  else none

/-- the pattern read by the analysis of MA27 and MA57; `none`: read outside of an array -/
def pattern (h : Hsl K) : Option (List (Nat × Nat)) :=
  if h.nnz ≤ h.rows.size ∧ h.nnz ≤ h.cols.size then
    some ((List.range h.nnz).map fun k => (h.rows.get k, h.cols.get k))
  else none

/-- the system read with the values in `a` -/
def system (h : Hsl K) (a : Buf K) : Option (CoordSys K) :=
  if h.nnz ≤ h.rows.size ∧ h.nnz ≤ h.cols.size ∧ h.nnz ≤ a.size then
    some ⟨h.dim, (List.range h.nnz).map fun k => (h.rows.get k, h.cols.get k, a.get k)⟩
  else none

end Hsl

/-- 1.2 times a size, cut off: `ma27_alloc_factor`, fact/fact_ma27.c:15, and
`ma57_size_factor`, fact/fact_ma57.c:22 -/
def size20 (n : Nat) : Nat := n * 6 / 5

/-! ### MA27 -/

/-- `ma27ad_`, `ma27bd_`, `ma27cd_`.  `analyse` gives the status, the largest of the two forecasts
of the space for reals and for integers, and the number of elimination steps.  `factor` is told the
sizes of both arrays; it gives the status, the space it suggests, the size of its fronts and
the factor. -/
structure Ma27Lib (H K : Type*) where
  analyse : Nat → List (Nat × Nat) → Int × Nat × Nat × Nat
  factor : CoordSys K → Nat → Nat → Int × Nat × Nat × H
  solve : H → (Nat → K) → Int × (Nat → K)

/-- `MA27Data`, fact/fact_ma27.c:171-187; integer work arrays only by their sizes -/
structure Ma27 (H K : Type*) where
  hsl : Hsl K
  iw : Nat
  iw1 : Nat
  ikeep : Nat
  w : Nat
  nsteps : Nat
  maxfrt : Nat
  factor : Buf K
  factorSize : Nat
  rhsSol : Buf K
  handle : Option H

namespace Ma27
variable {H : Type*}

/-- `ma27_data_create`, fact/fact_ma27.c:511-534 -/
def create (ijunk : Nat → Nat) (junk : Nat → K) : Ma27 H K :=
  ⟨Hsl.zero ijunk junk, 0, 0, 0, 0, 0, 0, ⟨0, junk⟩, 0, ⟨0, junk⟩, none⟩

/-- `ma27_factor_reserve`, fact/fact_ma27.c:226-236 -/
def reserve (s : Ma27 H K) (n : Nat) : Ma27 H K :=
  if s.factorSize < n then { s with factor := s.factor.realloc n, factorSize := n } else s

/-- the loop of `ma27_numeric`, fact/fact_ma27.c:238-322: the values are copied into the factor
array, which is enlarged as long as it is too small (status -4).  Its capacity to go on for ever
is the outcome `endless` after `fuel` rounds. -/
def loop (L : Ma27Lib H K) : Nat → Ma27 H K → Call (Ma27 H K)
  | 0, _ => .endless
  | fuel + 1, s =>
    match s.factor.writeAll ((List.range s.hsl.nnz).map fun i => (i, s.hsl.data.get i)) with
    | none => .ub
    | some a =>
      match s.hsl.system a with
      | none => .ub
      | some sys =>
        if s.factorSize ≤ a.size then
          let r := L.factor sys s.factorSize s.iw
          if r.1 = -4 then
            loop L fuel (({ s with factor := a } : Ma27 H K).reserve (max r.2.1 (size20 s.factorSize)))
          else
            let s' := { s with factor := a, maxfrt := r.2.2.1, handle := some r.2.2.2 }
            if r.1 ≠ 0 then .raised s' else .okay s'
        else .ub

/-- `ma27_set_matrix`, fact/fact_ma27.c:324-392, with `ma27_symbolic`, fact/fact_ma27.c:189-224,
and `ma27_numeric`, fact/fact_ma27.c:238-322.  MA27 is documented to need the sizes checked
before `analyse` is called. -/
def setMatrix (L : Ma27Lib H K) (fuel : Nat) (s : Ma27 H K) (M : Mat K) : Call (Ma27 H K) :=
  let n := M.numCols
  let s1 := if s.hsl.dim < n then { s with rhsSol := s.rhsSol.realloc n } else s
  match s1.hsl.set M with
  | none => .ub
  | some h =>
    let iw := size20 (max (2 * M.nnz + 3 * n + 1) (M.nnz + 3 * n + 1))
    let s2 := { s1 with
      hsl := h, iw := max s1.iw iw, ikeep := max s1.ikeep (3 * n), iw1 := max s1.iw1 (2 * n) }
    match h.pattern with
    | none => .ub
    | some p =>
      if 2 * h.nnz + 3 * h.dim + 1 ≤ s2.iw ∧ 3 * h.dim ≤ s2.ikeep ∧ 2 * h.dim ≤ s2.iw1 then
        let r := L.analyse h.dim p
        let s3 := { s2 with nsteps := r.2.2.2 }
        if r.1 ≠ 0 then .raised s3
        else
          let s4 := s3.reserve (max (size20 r.2.1) h.nnz)
          loop L fuel { s4 with iw := max s4.iw r.2.2.1 }
      else .ub

/-- `ma27_data_solve`, fact/fact_ma27.c:452-465, and `ma27_solve`, fact/fact_ma27.c:394-450 -/
def solve (L : Ma27Lib H K) (s : Ma27 H K) (b : Vec K) : Call (Ma27 H K) :=
  if b.dim = s.hsl.dim then
    match s.rhsSol.load b, s.handle with
    | some x, some h =>
      if s.hsl.dim ≤ x.size then
        let r := L.solve h x.get
        let s' := { s with
          w := max s.w s.maxfrt, iw1 := max s.iw1 s.nsteps, rhsSol := x.fillBy s.hsl.dim r.2 }
        if r.1 ≠ 0 then .raised s' else .okay s'
      else .ub
    | _, _ => .ub
  else .ub

/-- `sleqp_fact_ma27_create`, fact/fact_ma27.c:536-558 -/
def backend (L : Ma27Lib H K) (fuel : Nat) (ijunk : Nat → Nat) (junk : Nat → K) : Backend (Ma27 H K) K :=
  ⟨create ijunk junk, setMatrix L fuel, solve L, fun s => s.rhsSol⟩

end Ma27

/-! ### MA57 -/

/-- `ma57ad_`, `ma57bd_`, `ma57ed_`, `ma57cd_`.  `analyse` gives the status and the larger forecast
of the space for reals and for integers; `copy` is the status of copying an array into a larger
one; `refine` is `ICNTL(9)`, as set by `ma57id_`. -/
structure Ma57Lib (H K : Type*) where
  refine : Nat
  analyse : Nat → List (Nat × Nat) → Int × Nat × Nat
  factor : CoordSys K → Nat → Nat → Int × H
  copy : Nat → Nat → Int
  solve : H → (Nat → K) → Int × (Nat → K)

/-- `MA57Data`, fact/fact_ma57.c:302-312; work arrays only by their sizes -/
structure Ma57 (H K : Type*) where
  hsl : Hsl K
  keep : Nat
  iwork : Nat
  work : Nat
  sol : Buf K
  rhsSolSize : Nat
  factorSize : Nat
  ifactorSize : Nat
  handle : Option H

namespace Ma57
variable {H : Type*}

/-- `ma57_data_create`, fact/fact_ma57.c:732-768 -/
def create (ijunk : Nat → Nat) (junk : Nat → K) : Ma57 H K :=
  ⟨Hsl.zero ijunk junk, 0, 0, 0, ⟨0, junk⟩, 0, 0, 0, none⟩

/-- `req_work_size`, fact/fact_ma57.c:509-527, for `flag_estimate_cond = 0`: `ma57_est_cond` is
false, fact/fact_ma57.c:17 -/
def reqWork (L : Ma57Lib H K) (dim : Nat) : Nat :=
  if L.refine = 1 then dim else if L.refine > 1 then 3 * dim else 0

/-- the loop of `ma57_numeric`, fact/fact_ma57.c:444-507, with `ma57_increase_factor_size`,
fact/fact_ma57.c:347-393, and `ma57_increase_ifactor_size`, fact/fact_ma57.c:395-442 -/
def loop (L : Ma57Lib H K) : Nat → Ma57 H K → Call (Ma57 H K)
  | 0, _ => .endless
  | fuel + 1, s =>
    match s.hsl.system s.hsl.data with
    | none => .ub
    | some sys =>
      let r := L.factor sys s.factorSize s.ifactorSize
      if r.1 = -3 then
        if size20 s.factorSize > s.factorSize then
          let s' := { s with factorSize := size20 s.factorSize }
          if L.copy s.factorSize (size20 s.factorSize) < 0 then .raised s' else loop L fuel s'
        else .ub
      else if r.1 = -4 then
        if size20 s.ifactorSize > s.ifactorSize then
          let s' := { s with ifactorSize := size20 s.ifactorSize }
          if L.copy s.ifactorSize (size20 s.ifactorSize) < 0 then .raised s' else loop L fuel s'
        else .ub
      else
        let s' := { s with handle := some r.2 }
        if r.1 < 0 then .raised s' else .okay s'

/-- `ma57_set_matrix`, fact/fact_ma57.c:529-625, with `ma57_symbolic`, fact/fact_ma57.c:314-345.
`rhs_sol_size` is the size of `sol`; the sizes MA57 is documented to need are checked. -/
def setMatrix (L : Ma57Lib H K) (fuel : Nat) (s : Ma57 H K) (M : Mat K) : Call (Ma57 H K) :=
  let n := M.numCols
  let s1 := if s.rhsSolSize < n then { s with sol := s.sol.realloc n, rhsSolSize := n } else s
  let s2 := { s1 with work := max s1.work (reqWork L n) }
  match s2.hsl.set M with
  | none => .ub
  | some h =>
    let s3 := { s2 with
      hsl := h, keep := max s2.keep (5 * n + h.nnz + max n h.nnz + 42), iwork := max s2.iwork (5 * n) }
    match h.pattern with
    | none => .ub
    | some p =>
      if 5 * h.dim + h.nnz + max h.dim h.nnz + 42 ≤ s3.keep ∧ 5 * h.dim ≤ s3.iwork then
        let r := L.analyse h.dim p
        if r.1 < 0 then .raised s3
        else loop L fuel { s3 with
          factorSize := max s3.factorSize r.2.1, ifactorSize := max s3.ifactorSize r.2.2 }
      else .ub

/-- `ma57_solve`, fact/fact_ma57.c:627-711; `ma57_solve_refine` is false, fact/fact_ma57.c:18 -/
def solve (L : Ma57Lib H K) (s : Ma57 H K) (b : Vec K) : Call (Ma57 H K) :=
  if s.hsl.dim = b.dim then
    match s.sol.load b, s.handle with
    | some x, some h =>
      if s.hsl.dim ≤ x.size ∧ s.hsl.dim ≤ s.work ∧ s.hsl.dim ≤ s.iwork then
        let r := L.solve h x.get
        let s' := { s with sol := x.fillBy s.hsl.dim r.2 }
        if r.1 < 0 then .raised s' else .okay s'
      else .ub
    | _, _ => .ub
  else .ub

/-- `sleqp_fact_ma57_create`, fact/fact_ma57.c:809-831 -/
def backend (L : Ma57Lib H K) (fuel : Nat) (ijunk : Nat → Nat) (junk : Nat → K) : Backend (Ma57 H K) K :=
  ⟨create ijunk junk, setMatrix L fuel, solve L, fun s => s.sol⟩

end Ma57

/-! ### MA86 and MA97 -/

/-- the two statuses in the `info` of HSL_MC68, HSL_MA86 and HSL_MA97: `flag` tells whether the
call succeeded, `stat` is that of the last Fortran allocation -/
structure HslInfo where
  flag : Int
  stat : Int

/-- `mc68_order`, `ma86_analyse`, `ma86_factor`, `ma86_solve` (or `ma97_…`); factor and solution
carry the `info` left behind -/
structure Ma86Lib (H K : Type*) where
  order : CscSys K → HslInfo
  analyse : CscSys K → HslInfo
  factor : CscSys K → HslInfo × H
  solve : H → (Nat → K) → HslInfo × (Nat → K)

/-- `MA86Data`, fact/fact_ma86.c:127-142, and `MA97Data`, fact/fact_ma97.c:204-220 -/
structure Ma86 (H K : Type*) where
  dim : Nat
  maxDim : Nat
  order : Nat
  rhsSol : Buf K
  handle : Option H

/-- the arrays of a matrix, handed over as they are -/
def Mat.csc (M : Mat K) : CscSys K := ⟨M.numRows, M.numCols, M.ptr, M.row, M.val⟩

namespace Ma86
variable {H : Type*}

/-- `ma86_data_create`, fact/fact_ma86.c:144-171, and `ma97_data_create`, fact/fact_ma97.c:222-251 -/
def create (junk : Nat → K) : Ma86 H K := ⟨0, 0, 0, ⟨0, junk⟩, none⟩

/-- `ma86_data_set_matrix`, fact/fact_ma86.c:173-235, and `ma97_data_set_matrix`,
fact/fact_ma97.c:253-321: after each call `info.stat` is looked at -/
def setMatrix (L : Ma86Lib H K) (s : Ma86 H K) (M : Mat K) : Call (Ma86 H K) :=
  if M.numCols = M.numRows then
    let n := M.numCols
    let s1 := if s.maxDim < n then { s with order := n, rhsSol := s.rhsSol.realloc n, maxDim := n } else s
    let s2 := { s1 with dim := n }
    if n ≤ s2.order then
      if (L.order M.csc).stat < 0 then .raised s2
      else if (L.analyse M.csc).stat < 0 then .raised s2
      else
        let r := L.factor M.csc
        let s3 := { s2 with handle := some r.2 }
        if r.1.stat < 0 then .raised s3 else .okay s3
    else .ub
  else .ub

/-- `ma86_data_solve`, fact/fact_ma86.c:237-264, and `ma97_data_solve`, fact/fact_ma97.c:323-347 -/
def solve (L : Ma86Lib H K) (s : Ma86 H K) (b : Vec K) : Call (Ma86 H K) :=
  if b.dim = s.dim then
    match s.rhsSol.load b, s.handle with
    | some x, some h =>
      if s.dim ≤ x.size then
        let r := L.solve h x.get
        let s' := { s with rhsSol := x.fillBy s.dim r.2 }
        if r.1.stat < 0 then .raised s' else .okay s'
      else .ub
    | _, _ => .ub
  else .ub

/-- `sleqp_fact_ma86_create`, fact/fact_ma86.c:303-325, and `sleqp_fact_ma97_create`,
fact/fact_ma97.c:383-405 -/
def backend (L : Ma86Lib H K) (junk : Nat → K) : Backend (Ma86 H K) K :=
  ⟨create junk, setMatrix L, solve L, fun s => s.rhsSol⟩

end Ma86

/-! ### MUMPS -/

/-- `SleqpMUMPSData`, fact/fact_mumps.c:15-29 -/
structure Mumps (H K : Type*) where
  dim : Nat
  nnz : Nat
  maxNnz : Nat
  cols : Buf Nat
  rows : Buf Nat
  data : Buf K
  rhsSol : Buf K
  handle : Option H

namespace Mumps
variable {H : Type*}

/-- `sleqp_mumps_create`, fact/fact_mumps.c:49-82 -/
def create (ijunk : Nat → Nat) (junk : Nat → K) : Mumps H K :=
  ⟨0, 0, 0, ⟨0, ijunk⟩, ⟨0, ijunk⟩, ⟨0, junk⟩, ⟨0, junk⟩, none⟩

/-- `while (index >= cols[col + 1]) ++col`, fact/fact_mumps.c:130-133; the number of columns left
is the fuel, beyond it the pointers are read out of bounds -/
def nextCol (ptr : Nat → Nat) (index : Nat) : Nat → Nat → Option Nat
  | 0, _ => none
  | left + 1, col => if index < ptr (col + 1) then some col else nextCol ptr index left (col + 1)

/-- the state of the loop of `matrix_fill`: `col`, `data_index` and the arrays -/
structure Fill (K : Type*) where
  col : Nat
  count : Nat
  rows : Buf Nat
  cols : Buf Nat
  data : Buf K

/-- one round of the loop of `matrix_fill`, fact/fact_mumps.c:99-155 -/
def fillStep (M : Mat K) (f : Fill K) (index : Nat) : Option (Fill K) :=
  (nextCol M.ptr index (M.numCols - f.col) f.col).bind fun col =>
    if M.row index < col then some { f with col := col }
    else
      (f.rows.write f.count (M.row index + 1)).bind fun r =>
        (f.cols.write f.count (col + 1)).bind fun c =>
          (f.data.write f.count (M.val index)).map fun d => ⟨col, f.count + 1, r, c, d⟩

/-- `matrix_fill`, fact/fact_mumps.c:99-155, with `matrix_reserve`, fact/fact_mumps.c:84-97 -/
def fill (s : Mumps H K) (M : Mat K) : Option (Mumps H K) :=
  if M.numRows = M.numCols then
    let n := M.numRows
    let s1 := if s.dim < n then { s with rhsSol := s.rhsSol.realloc n } else s
    let s2 := if s1.maxNnz < M.nnz then
        { s1 with
          cols := s1.cols.realloc M.nnz, rows := s1.rows.realloc M.nnz, data := s1.data.realloc M.nnz,
          maxNnz := M.nnz }
      else s1
    ((List.range M.nnz).foldlM (fillStep M) ⟨0, 0, s2.rows, s2.cols, s2.data⟩).bind fun f =>
      if f.count ≤ M.nnz then
        some { s2 with dim := n, rows := f.rows, cols := f.cols, data := f.data, nnz := f.count }
      else none
  else none

/-- `sleqp_mumps_set_matrix`, fact/fact_mumps.c:172-196; both jobs are one function of the
library -/
def setMatrix (L : FactLib (CoordSys K) H K) (s : Mumps H K) (M : Mat K) : Call (Mumps H K) :=
  match s.fill M with
  | none => .ub
  | some s1 =>
    if s1.nnz ≤ s1.rows.size ∧ s1.nnz ≤ s1.cols.size ∧ s1.nnz ≤ s1.data.size then
      let r := L.factor ⟨s1.dim, (List.range s1.nnz).map fun k => (s1.rows.get k, s1.cols.get k, s1.data.get k)⟩
      let s2 := { s1 with handle := some r.2 }
      if r.1 < 0 then .raised s2 else .okay s2
    else .ub

/-- `sleqp_mumps_solve`, fact/fact_mumps.c:198-220 -/
def solve (L : FactLib (CoordSys K) H K) (s : Mumps H K) (b : Vec K) : Call (Mumps H K) :=
  if b.dim = s.dim then
    match s.rhsSol.load b, s.handle with
    | some x, some h =>
      if s.dim ≤ x.size then
        let r := L.solve h x.get
        let s' := { s with rhsSol := x.fillBy s.dim r.2 }
        if r.1 < 0 then .raised s' else .okay s'
      else .ub
    | _, _ => .ub
  else .ub

/-- `sleqp_fact_mumps_create`, fact/fact_mumps.c:262-284 -/
def backend (L : FactLib (CoordSys K) H K) (ijunk : Nat → Nat) (junk : Nat → K) : Backend (Mumps H K) K :=
  ⟨create ijunk junk, setMatrix L, solve L, fun s => s.rhsSol⟩

end Mumps

/-! ### Right-hand sides which are kept zero between the calls -/

/-- `set_cache`, fact/fact_umfpack.c:185-194, fact/fact_cholmod.c:146-155, fact/fact_spqr.c:147-156 -/
def Buf.setCache (b : Buf K) (v : Vec K) : Option (Buf K) := b.writeAll v.ents

/-- `reset_cache`, fact/fact_umfpack.c:196-205, fact/fact_cholmod.c:157-166, fact/fact_spqr.c:158-167 -/
def Buf.resetCache (b : Buf K) (v : Vec K) : Option (Buf K) := b.writeAll (v.ents.map fun e => (e.1, 0))

/-! ### UMFPACK -/

/-- `UmfpackData`, fact/fact_umfpack.c:13-28; the matrix is kept by reference, it is assumed not to
change before the next `set_matrix` -/
structure Umfpack (H K : Type*) where
  matrix : Option (Mat K)
  handle : Option H
  solution : Buf K
  rhs : Buf K
  currentSize : Nat

namespace Umfpack
variable {H : Type*}

/-- `umfpack_data_create`, fact/fact_umfpack.c:286-298 -/
def create (junk : Nat → K) : Umfpack H K := ⟨none, none, ⟨0, junk⟩, ⟨0, junk⟩, 0⟩

/-- `umfpack_fact_set_matrix`, fact/fact_umfpack.c:119-183; symbolic and numeric factorization are
one function of the library -/
def setMatrix (L : FactLib (CscSys K) H K) (s : Umfpack H K) (M : Mat K) : Call (Umfpack H K) :=
  if M.numCols = M.numRows then
    let n := M.numRows
    let s1 := if s.currentSize < n then
        { s with rhs := s.rhs.realloc n, solution := s.solution.realloc n, currentSize := n }
      else s
    let r := L.factor M.csc
    if r.1 ≠ 0 then .raised { s1 with matrix := some M, handle := none }
    else match s1.rhs.writeAll ((List.range n).map fun i => (i, 0)) with
      | none => .ub
      | some z => .okay { s1 with matrix := some M, handle := some r.2, rhs := z }
  else .ub

/-- `umfpack_fact_solve`, fact/fact_umfpack.c:207-233 -/
def solve (L : FactLib (CscSys K) H K) (s : Umfpack H K) (b : Vec K) : Call (Umfpack H K) :=
  match s.matrix, s.handle with
  | some M, some h =>
    if b.dim = M.numRows then
      match s.rhs.setCache b with
      | none => .ub
      | some z =>
        if M.numRows ≤ z.size ∧ M.numRows ≤ s.solution.size then
          let r := L.solve h z.get
          let s1 := { s with rhs := z, solution := s.solution.fillBy M.numRows r.2 }
          if r.1 ≠ 0 then .raised s1
          else Call.lift ((z.resetCache b).map fun z' => { s1 with rhs := z' })
        else .ub
    else .ub
  | _, _ => .ub

/-- `sleqp_fact_umfpack_create`, fact/fact_umfpack.c:300-323 -/
def backend (L : FactLib (CscSys K) H K) (junk : Nat → K) : Backend (Umfpack H K) K :=
  ⟨create junk, setMatrix L, solve L, fun s => s.solution⟩

end Umfpack

/-! ### CHOLMOD -/

/-- `cholmod_sparse`: the arrays `p`, `i`, `x` -/
structure CholSparse (K : Type*) where
  nzmax : Nat
  ptr : Buf Nat
  row : Buf Nat
  val : Buf K

namespace CholSparse

/-- `cholmod_l_allocate_sparse` -/
def alloc (old : CholSparse K) (numCols nzmax : Nat) : CholSparse K :=
  ⟨nzmax, ⟨numCols + 1, old.ptr.get⟩, ⟨nzmax, old.row.get⟩, ⟨nzmax, old.val.get⟩⟩

/-- `cholmod_l_reallocate_sparse` -/
def realloc (s : CholSparse K) (nzmax : Nat) : CholSparse K :=
  ⟨nzmax, s.ptr, s.row.realloc nzmax, s.val.realloc nzmax⟩

/-- the copy of a matrix, fact/fact_cholmod.c:117-127, fact/fact_spqr.c:115-128 -/
def fill (s : CholSparse K) (M : Mat K) : Option (CholSparse K) :=
  (s.ptr.writeAll ((List.range (M.numCols + 1)).map fun j => (j, M.ptr j))).bind fun p =>
    (s.row.writeAll ((List.range M.nnz).map fun k => (k, M.row k))).bind fun r =>
      (s.val.writeAll ((List.range M.nnz).map fun k => (k, M.val k))).map fun v => { s with ptr := p, row := r, val := v }

end CholSparse

/-- the CHOLMOD functions: analysis and factorization (one function), solution (`none`: null) -/
structure CholLib (H K : Type*) where
  factor : CscSys K → Int × H
  solve : H → (Nat → K) → Option (Nat → K)

/-- `CHOLMODData`, fact/fact_cholmod.c:17-32.  `shape` is `none` before the first matrix;
null pointers are `none`; `spare` is unallocated memory. -/
structure Cholmod (H K : Type*) where
  shape : Option (Nat × Nat)
  sparse : Option (CholSparse K)
  rhs : Option (Buf K)
  sol : Option (Buf K)
  handle : Option H
  spare : CholSparse K

namespace Cholmod
variable {H : Type*}

/-- `cholmod_data_create`, fact/fact_cholmod.c:259-277 -/
def create (spare : CholSparse K) : Cholmod H K := ⟨none, none, none, none, none, spare⟩

/-- `update_shape`, fact/fact_cholmod.c:34-85 -/
def updateShape (s : Cholmod H K) (rows cols nnzMax : Nat) : Cholmod H K :=
  let rhs := if s.shape.map Prod.fst ≠ some rows then some ⟨rows, fun _ => 0⟩ else s.rhs
  let sparse := match s.sparse with
    | some sp =>
      if s.shape ≠ some (rows, cols) then sp.alloc cols nnzMax
      else if nnzMax > sp.nzmax then sp.realloc nnzMax else sp
    | none => s.spare.alloc cols nnzMax
  { s with rhs := rhs, sparse := some sparse, shape := some (rows, cols) }

/-- `cholmod_fact_set_matrix`, fact/fact_cholmod.c:87-144; `cholmod_l_check_sparse` is assumed to
accept the matrix -/
def setMatrix (L : CholLib H K) (s : Cholmod H K) (M : Mat K) : Call (Cholmod H K) :=
  let s1 := s.updateShape M.numRows M.numCols M.nnz
  if M.numCols = M.numRows then
    match s1.sparse.bind fun sp => sp.fill M with
    | none => .ub
    | some sp =>
      let r := L.factor ⟨M.numRows, M.numCols, sp.ptr.get, sp.row.get, sp.val.get⟩
      let s2 := { s1 with sparse := some sp, handle := some r.2 }
      if r.1 < 0 then .raised s2 else .okay s2
  else .ub

/-- `cholmod_fact_solve`, fact/fact_cholmod.c:168-195: a null solution fails an assert -/
def solve (L : CholLib H K) (s : Cholmod H K) (b : Vec K) : Call (Cholmod H K) :=
  match s.rhs, s.handle, s.shape with
  | some z0, some h, some (n, _) =>
    match z0.setCache b with
    | none => .ub
    | some z =>
      if n ≤ z.size then
        match L.solve h z.get with
        | none => .ub
        | some x => Call.lift ((z.resetCache b).map fun z' => { s with rhs := some z', sol := some ⟨n, x⟩ })
      else .ub
  | _, _, _ => .ub

/-- `sleqp_fact_cholmod_create`, fact/fact_cholmod.c:279-302 -/
def backend (L : CholLib H K) (spare : CholSparse K) : Backend (Cholmod H K) K :=
  ⟨create spare, setMatrix L, solve L, fun s => s.sol.getD ⟨0, fun _ => 0⟩⟩

end Cholmod

end Sleqp

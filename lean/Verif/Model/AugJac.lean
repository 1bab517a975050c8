import Verif.Model.Mat
import Verif.Model.WorkingSet

/-!
Model of `aug_jac/standard_aug_jac.c`, `aug_jac/box_constrained_aug_jac.c` and
`aug_jac/unconstrained_aug_jac.c`.  The factorization behind `fact/fact.h` is a parameter.
A failed assert, an array overrun or an error of the factorization is `none`.
-/

namespace Sleqp
variable {K : Type*} [Field K] [LinearOrder K]

/-- A factorization, fact/fact.h: whether it reads the lower triangle only
(`SLEQP_FACT_FLAGS_LOWER`), and the dense solution `sleqp_fact_solve` computes for a matrix and
a right-hand side (`none`: an error, e.g. a singular matrix). -/
structure Fact (K : Type*) where
  lower : Bool
  solve : Mat K → Vec K → Option (Nat → K)

/-- `sleqp_fact_solution`, fact/fact.c:91-102: the part `[begin, end)` of the dense solution,
stored in `sol` (all back ends do it as fact/fact_lapack.c:156-171). -/
def factSolution (z : Nat → K) (sol : Vec K) (first last : Nat) (zeroEps : K) : Option (Vec K) :=
  sol.setFromRaw zeroEps ((List.range (last - first)).map fun k => z (first + k))

/-! ### The augmented matrix -/

/-- the entries pushed into column `j` by `fill_aug_jac`,
aug_jac/standard_aug_jac.c:135-237 -/
def augCol (w : WSet) (J : Mat K) (j : Nat) : List (Nat × K) :=
  (j, 1) :: ((w.varIdx j).map fun k => (w.numVars + k, (1 : K))).toList ++
    (J.col j).filterMap fun e => (w.consIdx e.1).map fun k => (w.numVars + k, e.2)

/-- the asserts of `fill_aug_jac`, aug_jac/standard_aug_jac.c:135-237, for column `j`: an
entry has a position exactly if it is active -/
def augAsserts (w : WSet) (J : Mat K) (j : Nat) : Bool :=
  decide ((w.varIdx j).isSome ↔ w.varState j ≠ .inactive) &&
    (J.col j).all fun e => decide ((w.consIdx e.1).isSome ↔ w.consState e.1 ≠ .inactive)

/-- the first two loops of `add_upper`, aug_jac/standard_aug_jac.c:34-104, counting the entries
at or below row `n`: `cells` are the pairs of column and array index visited. -/
def upperCounts (n : Nat) (row : Nat → Nat) (cells : List (Nat × Nat)) : Nat → Nat :=
  cells.foldl (fun s c => if row c.2 < n then s else setAt s (row c.2) (s (row c.2) + 1)) fun _ => 0

/-- the pairs (column, array index) visited by the double loop over the first `n` columns -/
def colCells (m : Mat K) (n : Nat) : List (Nat × Nat) :=
  (List.range n).flatMap fun j => (List.range' (m.ptr j) (m.ptr (j + 1) - m.ptr j)).map fun k => (j, k)

/-- body of the last loop of `add_upper`, aug_jac/standard_aug_jac.c:34-104: the state is
(`col_indices[· + 1]`, `aug_rows`, `aug_data`); the entry is read from the arrays being
written. -/
def upperStep (n : Nat) (tptr : Nat → Nat) (s : (Nat → Nat) × (Nat → Nat) × (Nat → K)) (c : Nat × Nat) :
    (Nat → Nat) × (Nat → Nat) × (Nat → K) :=
  if s.2.1 c.2 < n then s else Mat.transStep tptr s (s.2.1 c.2, c.1, s.2.2 c.2)

/-- `add_upper`, aug_jac/standard_aug_jac.c:34-104, for `n` variables.  The column pointers
after the cumulative sum are written as prefix sums of the counts. -/
def addUpper (n : Nat) (m : Mat K) : Option (Mat K) :=
  let counts := upperCounts n m.row (colCells m n)
  let tptr := fun c =>
    if n < c ∧ c ≤ m.numCols then m.ptr n + Mat.prefixSum (fun i => counts (n + i)) (c - n) else m.ptr c
  let s := (colCells m n).foldl (upperStep n tptr) ((fun _ => 0), m.row, m.val)
  let added := ((colCells m n).filter fun c => !decide (m.row c.2 < n)).length
  if m.nnz + added ≤ m.cap then
    some { m with ptr := tptr, row := s.2.1, val := s.2.2, nnz := m.nnz + added }
  else none

/-- `sleqp_mat_is_lower`, sparse/mat.c:410-427. -/
def Mat.isLower (m : Mat K) : Bool :=
  (List.range m.numCols).all fun j => (m.col j).all fun e => decide (j ≤ e.1)

/-- `reserve_aug_jac`, aug_jac/standard_aug_jac.c:106-133, and `fill_aug_jac`,
aug_jac/standard_aug_jac.c:135-237: the augmented
matrix for the working set `w` and the constraint Jacobian `J`, built in `m`. -/
def fillAugJac (lower : Bool) (w : WSet) (J m : Mat K) : Option (Mat K) :=
  let n := w.numVars
  let maxNnz := n + (J.nnz + w.actVars) + (if lower then 0 else J.nnz + w.actVars)
  let m0 := ((m.reserve maxNnz).clear).resize (n + w.size) (n + w.size)
  if (List.range n).all (augAsserts w J) then
    (m0.assembleFrom 0 ((List.range n).map (augCol w J))).bind fun m1 =>
      (if lower then
          (m1.assembleFrom n (List.replicate w.size [])).bind fun m2 => if m2.isLower then some m2 else none
        else addUpper n m1).bind fun m2 =>
      if m2.isValid then some m2 else none
  else none

/-- `AugJacData`, aug_jac/standard_aug_jac.c:11-32: the matrix in use, its working set size,
whether it has been factorized, and — if all constraints are linear — the working set it was
computed for. -/
structure StdAug (K : Type*) where
  cached : Option WSet
  size : Nat
  hasFact : Bool
  matrix : Mat K

/-- `aug_jac_set_iterate`, aug_jac/standard_aug_jac.c:239-293 -/
def StdAug.setIterate (a : StdAug K) (lower : Bool) (w : WSet) (J : Mat K) : Option (StdAug K) :=
  let rebuild (c : Option WSet) : Option (StdAug K) :=
    (fillAugJac lower w J a.matrix).map fun m => ⟨c, w.size, true, m⟩
  match a.cached with
  | none => rebuild none
  | some c =>
    (w.eq c).bind fun e =>
      if e && a.hasFact then some a else (w.copy c).bind fun c' => rebuild (some c')

/-- `aug_jac_solve_min_norm`, aug_jac/standard_aug_jac.c:306-350, for `n` variables: the
right-hand side is moved behind `n` zeros. -/
def stdMinNorm (F : Fact K) (n : Nat) (M : Mat K) (rhs : Vec K) (zeroEps : K) (sol : Vec K) : Option (Vec K) :=
  if sol.dim = n then
    (F.solve M ⟨rhs.dim + n, rhs.cap, rhs.ents.map fun e => (e.1 + n, e.2)⟩).bind fun z =>
      factSolution z sol 0 n zeroEps
  else none

/-- `aug_jac_solve_lsq`, aug_jac/standard_aug_jac.c:352-394, for `n` variables and a working set
of size `s`. -/
def stdLsq (F : Fact K) (n s : Nat) (M : Mat K) (rhs : Vec K) (zeroEps : K) (sol : Vec K) : Option (Vec K) :=
  if rhs.dim = n then
    (F.solve M (rhs.resize (n + s))).bind fun z =>
      if sol.dim = s then factSolution z sol n (n + s) zeroEps else none
  else none

/-- `aug_jac_project_nullspace`, aug_jac/standard_aug_jac.c:396-435. -/
def stdProject (F : Fact K) (n s : Nat) (M : Mat K) (rhs : Vec K) (zeroEps : K) (sol : Vec K) : Option (Vec K) :=
  if rhs.dim = n then
    (F.solve M (rhs.resize (n + s))).bind fun z =>
      if sol.dim = n then factSolution z sol 0 n zeroEps else none
  else none

/-! ### Problems with bounds only, unconstrained problems -/

/-- `box_constrained_solve_min_norm`, aug_jac/box_constrained_aug_jac.c:26-47 -/
def boxMinNorm (w : WSet) (rhs sol : Vec K) : Option (Vec K) :=
  rhs.ents.foldlM (fun r e => r.push (w.content e.1) e.2) ((sol.clear).reserve rhs.nnz)

/-- `box_constrained_solve_lsq`, aug_jac/box_constrained_aug_jac.c:49-72 -/
def boxLsq (w : WSet) (rhs sol : Vec K) : Option (Vec K) :=
  rhs.ents.foldlM (fun r e => match w.varIdx e.1 with
    | some k => r.push k e.2
    | none => some r) ((sol.clear).reserve rhs.nnz)

/-- `box_constrained_project_nullspace`, aug_jac/box_constrained_aug_jac.c:74-99 -/
def boxProject (w : WSet) (rhs sol : Vec K) : Option (Vec K) :=
  rhs.ents.foldlM (fun r e => match w.varIdx e.1 with
    | some _ => some r
    | none => r.push e.1 e.2) ((sol.clear).reserve rhs.nnz)

/-- `aug_jac_solve_min_norm`, aug_jac/unconstrained_aug_jac.c:20-27 -/
def freeMinNorm (rhs sol : Vec K) : Option (Vec K) := if rhs.dim = 0 then some sol.clear else none

/-- `aug_jac_solve_lsq`, aug_jac/unconstrained_aug_jac.c:37-42: the result is left alone -/
def freeLsq (_rhs sol : Vec K) : Option (Vec K) := if sol.dim = 0 then some sol else none

/-- `aug_jac_project_nullspace`, aug_jac/unconstrained_aug_jac.c:29-35 -/
def freeProject (rhs sol : Vec K) : Option (Vec K) := rhs.copy sol

end Sleqp

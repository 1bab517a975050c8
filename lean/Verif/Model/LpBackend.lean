import Verif.Model.CauchyLp

/-!
Model of the LP back ends `lp/lpi_highs.c`, `lp/lpi_soplex.cc` and `lp/lpi_gurobi.c`.

The libraries are modelled by the linear program and the basis they hold; their functions for changing these are taken to do what their
documentation says, and to succeed. The result of a solve is arbitrary: it is the argument of the operation `solve`. Arrays are functions
on `Nat`. Undefined behaviour, failing assertions and errors are `none`. Time limits, tolerances (except for SoPlex), output flags, return
values of solves and solutions are left out.
-/

namespace Sleqp
variable {K : Type*} [Field K] [LinearOrder K]

/-- the calls of an LP interface which change it, lp/lpi.c:86-189. `S` are the basis codes of the library; `solve` carries the basis found. -/
inductive LpiOp (K S : Type*)
  | bounds (consLb consUb varsLb varsUb : Nat → K)
  | coeffs (a : Mat K)
  | objective (c : Nat → K)
  | setBasis (k : Nat) (vars cons : Nat → BaseStat)
  | saveBasis (k : Nat)
  | restoreBasis (k : Nat)
  | solve (vars cons : Nat → S)

/-- a basis in the codes of the library -/
structure LibBasis (S : Type*) where
  cols : Nat → S
  rows : Nat → S

/-- a linear program held by a library: minimise `obj · x` subject to bounds on the columns and rows. `none` is an infinite bound. -/
structure LibLp (K : Type*) where
  obj : Nat → K
  colLb : Nat → Option K
  colUb : Nat → Option K
  rowLb : Nat → Option K
  rowUb : Nat → Option K
  /-- coefficient by row and column -/
  a : Nat → Nat → K

/-- assign the first `n` cells of an array -/
def firstN {α : Type*} (n : Nat) (new old : Nat → α) : Nat → α := fun j => if j < n then new j else old j

/-! ### HiGHS -/

/-- `HighsBasisStatus`: `kLower`, `kBasic`, `kUpper`, `kZero`, `kNonbasic` -/
inductive HighsStat
  | lower | basic | upper | zero | nonbasic
  deriving DecidableEq, Repr

/-- `SleqpLpiHIGHS`, lp/lpi_highs.c:15-53, and the state of the library. `bases` has a value where a basis has been stored. -/
structure HighsLpi (K : Type*) where
  numCols : Nat
  numRows : Nat
  costs : Nat → K
  colLb : Nat → Option K
  colUb : Nat → Option K
  rowLb : Nat → Option K
  rowUb : Nat → Option K
  dirtyCols : Bool
  dirtyRows : Bool
  dirtyObj : Bool
  dirtyCoeffs : Bool
  lib : LibLp K
  basis : Option (LibBasis HighsStat)
  numBases : Nat
  bases : Nat → Option (LibBasis HighsStat)

namespace HighsLpi

/-- `highs_create_problem`, lp/lpi_highs.c:68-173: applied to uninitialised storage (the bounds of the rows stay so) -/
def create (n m : Nat) (s : HighsLpi K) : HighsLpi K :=
  { s with
    numCols := n, numRows := m
    costs := firstN n (fun _ => 0) s.costs
    colLb := firstN n (fun _ => some 0) s.colLb
    colUb := firstN n (fun _ => some 0) s.colUb
    dirtyCols := true, dirtyRows := true, dirtyObj := true, dirtyCoeffs := true
    basis := none, numBases := 0, bases := fun _ => none }

/-- `adjust_neg_inf`, lp/lpi_highs.c:313-317 -/
def adjustNeg (inf v : K) : Option K := if isInfinite inf (-v) then none else some v

/-- `adjust_pos_inf`, lp/lpi_highs.c:319-323 -/
def adjustPos (inf v : K) : Option K := if isInfinite inf v then none else some v

/-- `prepare_problem`, lp/lpi_highs.c:186-237 -/
def prepare (s : HighsLpi K) : Option (HighsLpi K) :=
  if s.dirtyCoeffs then none
  else some { s with
    lib := { s.lib with
      colLb := if s.dirtyCols then firstN s.numCols s.colLb s.lib.colLb else s.lib.colLb
      colUb := if s.dirtyCols then firstN s.numCols s.colUb s.lib.colUb else s.lib.colUb
      rowLb := if s.dirtyRows then firstN s.numRows s.rowLb s.lib.rowLb else s.lib.rowLb
      rowUb := if s.dirtyRows then firstN s.numRows s.rowUb s.lib.rowUb else s.lib.rowUb
      obj := if s.dirtyObj then firstN s.numCols s.costs s.lib.obj else s.lib.obj }
    dirtyCols := false, dirtyRows := false, dirtyObj := false }

/-- `basestat_for`, lp/lpi_highs.c:436-466: `none` is an error -/
def statFor : HighsStat → Option BaseStat
  | .basic => some .basic
  | .lower => some .lower
  | .upper => some .upper
  | .zero => some .zero
  | .nonbasic => none

/-- `basestat_from`, lp/lpi_highs.c:468-489 -/
def statFrom : BaseStat → HighsStat
  | .basic => .basic
  | .lower => .lower
  | .upper => .upper
  | .zero => .zero

/-- one call: `highs_set_bounds`, lp/lpi_highs.c:325-353; `highs_set_coeffs`, lp/lpi_highs.c:355-392 (a new program is passed to the
library, which drops its basis); `highs_set_objective`, lp/lpi_highs.c:394-410; `highs_set_basis`, lp/lpi_highs.c:491-517;
`highs_save_basis`, lp/lpi_highs.c:519-535; `highs_restore_basis`, lp/lpi_highs.c:537-552 (the library holds no columns before
coefficients have been set); `highs_solve`, lp/lpi_highs.c:252-303 -/
def step (inf : K) (s : HighsLpi K) : LpiOp K HighsStat → Option (HighsLpi K)
  | .bounds cl cu vl vu =>
    some { s with
      colLb := firstN s.numCols (fun j => adjustNeg inf (vl j)) s.colLb
      colUb := firstN s.numCols (fun j => adjustPos inf (vu j)) s.colUb
      dirtyCols := s.dirtyCols || decide (0 < s.numCols)
      rowLb := firstN s.numRows (fun i => adjustNeg inf (cl i)) s.rowLb
      rowUb := firstN s.numRows (fun i => adjustPos inf (cu i)) s.rowUb
      dirtyRows := s.dirtyRows || decide (0 < s.numRows) }
  | .coeffs a =>
    if a.numRows = s.numRows ∧ a.numCols = s.numCols then
      some { s with
        lib := ⟨s.costs, s.colLb, s.colUb, s.rowLb, s.rowUb, fun i j => a.value i j⟩
        dirtyCols := false, dirtyRows := false, dirtyObj := false, dirtyCoeffs := false, basis := none }
    else none
  | .objective c => some { s with costs := firstN s.numCols c s.costs, dirtyObj := true }
  | .setBasis k vars cons =>
    some { s with
      numBases := max s.numBases (k + 1)
      bases := setAt s.bases k (some ⟨fun j => statFrom (vars j), fun i => statFrom (cons i)⟩) }
  | .saveBasis k => s.basis.bind fun b => some { s with numBases := max s.numBases (k + 1), bases := setAt s.bases k (some b) }
  | .restoreBasis k =>
    if k < s.numBases ∧ s.dirtyCoeffs = false then (s.bases k).bind fun b => some { s with basis := some b } else none
  | .solve vars cons => s.prepare.bind fun t => some { t with basis := some ⟨vars, cons⟩ }

/-- a sequence of calls -/
def run (inf : K) (s : HighsLpi K) (h : List (LpiOp K HighsStat)) : Option (HighsLpi K) := h.foldlM (fun s o => s.step inf o) s

/-- `highs_vars_stats`, lp/lpi_highs.c:614-633 -/
def varStat (s : HighsLpi K) (j : Nat) : Option BaseStat := s.basis.bind fun b => statFor (b.cols j)

/-- `highs_cons_stats`, lp/lpi_highs.c:635-654 -/
def consStat (s : HighsLpi K) (i : Nat) : Option BaseStat := s.basis.bind fun b => statFor (b.rows i)

end HighsLpi

/-! ### SoPlex -/

/-- `soplex::SPxSolver::VarStatus` -/
inductive SpxStat
  | onUpper | onLower | fixed | zero | basic | undefined
  deriving DecidableEq, Repr

/-- `SleqpLpiSoplex`, lp/lpi_soplex.cc:34-52, and the state of the library. `infty` is the parameter `INFTY` of the library; tolerances
are `none` if the library uses its own. Bases are created with all entries `ZERO`, lp/lpi_soplex.cc:20-32. -/
structure SoplexLpi (K : Type*) where
  numCols : Nat
  numRows : Nat
  obj : Nat → K
  colLb : Nat → K
  colUb : Nat → K
  rowLb : Nat → K
  rowUb : Nat → K
  a : Nat → Nat → K
  basis : Option (LibBasis SpxStat)
  numBases : Nat
  bases : Nat → LibBasis SpxStat
  feasTol : Option K
  optTol : Option K

namespace SoplexLpi

/-- `soplex_create_problem`, lp/lpi_soplex.cc:53-137. `debug` tells whether assertions are compiled in: the parameters are set within
assertions. (The parameter `INFTY` has the value `1e100` of `sleqp_infinity` by default.) -/
def create (debug : Bool) (feasEps statEps infty : K) (n m : Nat) : SoplexLpi K :=
  { numCols := n, numRows := m, obj := fun _ => 0
    colLb := fun _ => -infty, colUb := fun _ => infty, rowLb := fun _ => -infty, rowUb := fun _ => infty, a := fun _ _ => 0
    basis := none, numBases := 0, bases := fun _ => ⟨fun _ => .zero, fun _ => .zero⟩
    feasTol := if debug then some (feasEps * (1 / 10)) else none
    optTol := if debug then some (statEps * (1 / 10)) else none }

/-- the linear program held by the library: bounds of size at least `infty` are infinite -/
def lib (infty : K) (s : SoplexLpi K) : LibLp K :=
  ⟨s.obj, fun j => if s.colLb j ≤ -infty then none else some (s.colLb j), fun j => if infty ≤ s.colUb j then none else some (s.colUb j),
    fun i => if s.rowLb i ≤ -infty then none else some (s.rowLb i), fun i => if infty ≤ s.rowUb i then none else some (s.rowUb i), s.a⟩

/-- `basestat_for`, lp/lpi_soplex.cc:390-413 -/
def statFor : SpxStat → Option BaseStat
  | .onLower => some .lower
  | .onUpper => some .upper
  | .zero => some .zero
  | .fixed => some .upper
  | .basic => some .basic
  | .undefined => none

/-- `basestat_from`, lp/lpi_soplex.cc:415-436 -/
def statFrom : BaseStat → SpxStat
  | .lower => .onLower
  | .upper => .onUpper
  | .zero => .zero
  | .basic => .basic

/-- one call: `soplex_set_bounds`, lp/lpi_soplex.cc:298-323; `soplex_set_coefficients`, lp/lpi_soplex.cc:325-371 (the columns are replaced
one by one, keeping objective and bounds; the basis is saved and set again); `soplex_set_objective`, lp/lpi_soplex.cc:373-388;
`soplex_set_basis`, lp/lpi_soplex.cc:438-468; `soplex_save_basis`, lp/lpi_soplex.cc:470-490; `soplex_restore_basis`,
lp/lpi_soplex.cc:492-509; `soplex_solve`, lp/lpi_soplex.cc:179-288 -/
def step (s : SoplexLpi K) : LpiOp K SpxStat → Option (SoplexLpi K)
  | .bounds cl cu vl vu =>
    if (∀ i, i < s.numRows → cl i ≤ cu i) ∧ (∀ j, j < s.numCols → vl j ≤ vu j) then
      some { s with rowLb := firstN s.numRows cl s.rowLb, rowUb := firstN s.numRows cu s.rowUb,
                    colLb := firstN s.numCols vl s.colLb, colUb := firstN s.numCols vu s.colUb }
    else none
  | .coeffs a =>
    if a.numRows = s.numRows ∧ a.numCols = s.numCols then
      some { s with a := fun i j => if j < s.numCols then a.value i j else s.a i j }
    else none
  | .objective c => some { s with obj := firstN s.numCols c s.obj }
  | .setBasis k vars cons =>
    some { s with
      numBases := max s.numBases (k + 1)
      bases := setAt s.bases k ⟨firstN s.numCols (fun j => statFrom (vars j)) (s.bases k).cols,
        firstN s.numRows (fun i => statFrom (cons i)) (s.bases k).rows⟩ }
  | .saveBasis k => s.basis.bind fun b => some { s with numBases := max s.numBases (k + 1), bases := setAt s.bases k b }
  | .restoreBasis k => if k < s.numBases then some { s with basis := some (s.bases k) } else none
  | .solve vars cons => some { s with basis := some ⟨vars, cons⟩ }

/-- a sequence of calls -/
def run (s : SoplexLpi K) (h : List (LpiOp K SpxStat)) : Option (SoplexLpi K) := h.foldlM (fun s o => s.step o) s

/-- `soplex_vars_stats`, lp/lpi_soplex.cc:563-578 -/
def varStat (s : SoplexLpi K) (j : Nat) : Option BaseStat := s.basis.bind fun b => statFor (b.cols j)

/-- `soplex_cons_stats`, lp/lpi_soplex.cc:580-595 -/
def consStat (s : SoplexLpi K) (i : Nat) : Option BaseStat := s.basis.bind fun b => statFor (b.rows i)

end SoplexLpi

/-! ### Gurobi -/

/-- `SleqpLpiGRB`, lp/lpi_gurobi.c:20-43, and the state of the library: minimise `obj · x` subject to `a x = 0` and bounds on the columns;
the columns behind the first `numCols` stand for the values of the rows. Basis codes are the integers of the library. -/
structure GurobiLpi (K : Type*) where
  numCols : Nat
  numRows : Nat
  obj : Nat → K
  lb : Nat → K
  ub : Nat → K
  a : Nat → Nat → K
  basis : Option (LibBasis Int)
  numBases : Nat
  bases : Nat → Option (LibBasis Int)

namespace GurobiLpi

/-- `gurobi_create_problem`, lp/lpi_gurobi.c:58-145 -/
def create (infty : K) (n m : Nat) : GurobiLpi K :=
  { numCols := n, numRows := m, obj := fun _ => 0, lb := fun _ => 0, ub := fun _ => infty
    a := fun i c => if c = n + i then -1 else 0, basis := none, numBases := 0, bases := fun _ => none }

/-- change one coefficient -/
def chgCoeff (a : Nat → Nat → K) (i c : Nat) (x : K) : Nat → Nat → K := fun i' c' => if i' = i ∧ c' = c then x else a i' c'

/-- the loops of `gurobi_set_coefficients`, lp/lpi_gurobi.c:270-300 -/
def setCoeffs (n : Nat) (m : Mat K) (a : Nat → Nat → K) : Nat → Nat → K :=
  (List.range n).foldl (fun a col => (m.col col).foldl (fun a e => chgCoeff a e.1 col e.2) a) a

/-- `basestat_for`, lp/lpi_gurobi.c:344-365, with the codes `GRB_BASIC` = 0, `GRB_NONBASIC_LOWER` = -1, `GRB_NONBASIC_UPPER` = -2 -/
def statFor (c : Int) : Option BaseStat :=
  if c = 0 then some .basic else if c = -1 then some .lower else if c = -2 then some .upper else none

/-- `basestat_from`, lp/lpi_gurobi.c:367-387 -/
def statFrom : BaseStat → Int
  | .basic => 0
  | .lower => -1
  | .upper => -2
  | .zero => -2

/-- the codes stored for a row and for its column in `gurobi_set_basis`, lp/lpi_gurobi.c:389-437: they are constants of
`SLEQP_BASESTAT` (lower 0, basic 1, upper 2), not of the library -/
def rowCodes : BaseStat → Int × Int
  | .lower => (0, 0)
  | .upper => (0, 2)
  | .zero => (0, 2)
  | .basic => (1, 1)

/-- one call: `gurobi_set_bounds`, lp/lpi_gurobi.c:237-268; `gurobi_set_coefficients`, lp/lpi_gurobi.c:270-300; `gurobi_set_objective`,
lp/lpi_gurobi.c:302-318; `gurobi_set_basis`, lp/lpi_gurobi.c:389-437; `gurobi_save_basis`, lp/lpi_gurobi.c:439-466;
`gurobi_restore_basis`, lp/lpi_gurobi.c:468-494; `gurobi_solve`, lp/lpi_gurobi.c:177-227 -/
def step (s : GurobiLpi K) : LpiOp K Int → Option (GurobiLpi K)
  | .bounds cl cu vl vu =>
    some { s with
      lb := fun c => if c < s.numCols then vl c else if c < s.numCols + s.numRows then cl (c - s.numCols) else s.lb c
      ub := fun c => if c < s.numCols then vu c else if c < s.numCols + s.numRows then cu (c - s.numCols) else s.ub c }
  | .coeffs m =>
    if m.numRows = s.numRows ∧ m.numCols = s.numCols then some { s with a := setCoeffs s.numCols m s.a } else none
  | .objective c => some { s with obj := firstN s.numCols c s.obj }
  | .setBasis k vars cons =>
    some { s with
      numBases := max s.numBases (k + 1)
      bases := setAt s.bases k (some ⟨fun c => if c < s.numCols then statFrom (vars c) else (rowCodes (cons (c - s.numCols))).2,
        fun i => (rowCodes (cons i)).1⟩) }
  | .saveBasis k => s.basis.bind fun b => some { s with numBases := max s.numBases (k + 1), bases := setAt s.bases k (some b) }
  | .restoreBasis k => if k < s.numBases then (s.bases k).bind fun b => some { s with basis := some b } else none
  | .solve vars cons => some { s with basis := some ⟨vars, cons⟩ }

/-- a sequence of calls -/
def run (s : GurobiLpi K) (h : List (LpiOp K Int)) : Option (GurobiLpi K) := h.foldlM (fun s o => s.step o) s

/-- `gurobi_vars_stats`, lp/lpi_gurobi.c:555-579 -/
def varStat (s : GurobiLpi K) (j : Nat) : Option BaseStat := s.basis.bind fun b => statFor (b.cols j)

/-- `gurobi_cons_stats`, lp/lpi_gurobi.c:581-636 -/
def consStat (s : GurobiLpi K) (i : Nat) : Option BaseStat :=
  s.basis.bind fun b => if b.rows i = 0 then some .basic else statFor (b.cols (s.numCols + i))

end GurobiLpi
end Sleqp

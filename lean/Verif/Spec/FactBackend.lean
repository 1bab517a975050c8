import Verif.Model.FactBackend
import Verif.Spec.AugJac
import Mathlib.Algebra.BigOperators.Group.Finset.Basic

/-!
Specification of factorization back ends: which matrix a library reads, when a library is correct,
and what is expected of a back end in every state it can be brought into.
-/

namespace Sleqp
open Finset
variable {K : Type*} [Field K] [LinearOrder K]

/-! ### The matrices the libraries read -/

/-- triplets of a symmetric matrix: each stands for two mirrored entries, duplicates are summed up -/
def CoordSys.entry (s : CoordSys K) (i j : Nat) : K :=
  (s.trip.map fun t =>
    if (t.1 = i + 1 ∧ t.2.1 = j + 1) ∨ (t.1 = j + 1 ∧ t.2.1 = i + 1) then t.2.2 else 0).sum

/-- compressed columns: the sum of what column `j` stores for row `i` -/
def CscSys.entry (s : CscSys K) (i j : Nat) : K :=
  ((List.range' (s.ptr j) (s.ptr (j + 1) - s.ptr j)).map fun k => if s.row k = i then s.val k else 0).sum

/-- compressed columns of a symmetric matrix of which the lower triangle is read only -/
def CscSys.lowerEntry (s : CscSys K) (i j : Nat) : K := if i < j then s.entry j i else s.entry i j

/-- a dense matrix stored by columns -/
def denseEntry (n : Nat) (a : Nat → K) (i j : Nat) : K := a (j * n + i)

/-- `x` solves the system with the matrix `E` of size `n` -/
def SolvesSys (n : Nat) (E : Nat → Nat → K) (b x : Nat → K) : Prop :=
  ∀ i < n, ∑ j ∈ range n, E i j * x j = b i

/-! ### Correct libraries: if they report success, the solution solves the system given -/

/-- LAPACK reports success by 0 -/
def LapackLib.Correct (L : LapackLib K) : Prop :=
  ∀ (n : Nat) (a f b : Nat → K), (L.factor n a).1 = 0 → (∀ k < n * n, f k = (L.factor n a).2 k) →
    (L.solve n f b).1 = 0 → SolvesSys n (denseEntry n a) b (L.solve n f b).2

/-- a library which reports success by a status which is `fine` -/
def FactLib.Correct {S H : Type*} (L : FactLib S H K) (dim : S → Nat) (entry : S → Nat → Nat → K) (fine : Int → Prop) : Prop :=
  ∀ (s : S) (b : Nat → K), fine (L.factor s).1 → fine (L.solve (L.factor s).2 b).1 →
    SolvesSys (dim s) (entry s) b (L.solve (L.factor s).2 b).2

/-- MA27 reports success by 0 -/
def Ma27Lib.Correct {H : Type*} (L : Ma27Lib H K) : Prop :=
  ∀ (s : CoordSys K) (la liw : Nat) (b : Nat → K), (L.factor s la liw).1 = 0 →
    (L.solve (L.factor s la liw).2.2.2 b).1 = 0 →
    SolvesSys s.dim s.entry b (L.solve (L.factor s la liw).2.2.2 b).2

/-- MA57 reports success by 0, failures by negative numbers, a singular matrix by 4; other
positive numbers are harmless warnings -/
def Ma57Lib.Correct {H : Type*} (L : Ma57Lib H K) : Prop :=
  ∀ (s : CoordSys K) (la lia : Nat) (b : Nat → K), 0 ≤ (L.factor s la lia).1 → (L.factor s la lia).1 ≠ 4 →
    0 ≤ (L.solve (L.factor s la lia).2 b).1 →
    SolvesSys s.dim s.entry b (L.solve (L.factor s la lia).2 b).2

/-- HSL_MA86 and HSL_MA97 report failures by a negative `flag` -/
def Ma86Lib.Correct {H : Type*} (L : Ma86Lib H K) : Prop :=
  ∀ (s : CscSys K) (b : Nat → K), s.numRows = s.numCols → 0 ≤ (L.order s).flag → 0 ≤ (L.analyse s).flag →
    0 ≤ (L.factor s).1.flag → 0 ≤ (L.solve (L.factor s).2 b).1.flag →
    SolvesSys s.numRows s.lowerEntry b (L.solve (L.factor s).2 b).2

/-- CHOLMOD reports failures by negative numbers and a matrix which is not positive definite
by 1 (`CHOLMOD_NOT_POSDEF`) -/
def CholLib.Correct {H : Type*} (L : CholLib H K) : Prop :=
  ∀ (s : CscSys K) (b x : Nat → K), s.numRows = s.numCols → (L.factor s).1 = 0 →
    L.solve (L.factor s).2 b = some x → SolvesSys s.numRows s.lowerEntry b x

/-! ### What is expected of a back end -/

/-- a matrix `sleqp_fact_set_matrix` may be given: well formed, square, and its lower triangle
only if the back end wants this -/
structure Mat.Fits (lower : Bool) (M : Mat K) : Prop where
  wf : M.WF
  square : M.numRows = M.numCols
  lower : lower = true → M.isLower = true

/-- entry of the symmetric matrix meant by `M` -/
def symEntry (lower : Bool) (M : Mat K) (i j : Nat) : K :=
  if lower = true ∧ i < j then M.value j i else M.value i j

/-- the states a back end can be brought into, with the matrix it has accepted last: matrices
of all sizes in any order, right-hand sides for the last matrix, errors of the library at any
time -/
inductive Backend.Reach {σ : Type*} (B : Backend σ K) (lower : Bool) : σ → Option (Mat K) → Prop
  | init : Backend.Reach B lower B.init none
  | set {s s' : σ} {m : Option (Mat K)} {M : Mat K} : Backend.Reach B lower s m → M.Fits lower →
      B.setMatrix s M = .okay s' → Backend.Reach B lower s' (some M)
  | setFails {s s' : σ} {m : Option (Mat K)} {M : Mat K} : Backend.Reach B lower s m → M.Fits lower →
      B.setMatrix s M = .raised s' → Backend.Reach B lower s' none
  | solve {s s' : σ} {M : Mat K} {b : Vec K} : Backend.Reach B lower s (some M) → b.WF → b.dim = M.numRows →
      B.solve s b = .okay s' → Backend.Reach B lower s' (some M)
  | solveFails {s s' : σ} {M : Mat K} {b : Vec K} : Backend.Reach B lower s (some M) → b.WF → b.dim = M.numRows →
      B.solve s b = .raised s' → Backend.Reach B lower s' (some M)

/-- In every such state no call reads or writes out of bounds, and a solution which is returned
without an error solves the system with the last matrix and the right-hand side given. -/
def Backend.Reliable {σ : Type*} (B : Backend σ K) (lower : Bool) : Prop :=
  ∀ (s : σ) (m : Option (Mat K)), B.Reach lower s m →
    (∀ M : Mat K, M.Fits lower → B.setMatrix s M ≠ .ub) ∧
    ∀ M : Mat K, m = some M → ∀ b : Vec K, b.WF → b.dim = M.numRows →
      B.solve s b ≠ .ub ∧
      ∀ s', B.solve s b = .okay s' → M.numRows ≤ (B.sol s').size ∧
        SolvesSys M.numRows (symEntry lower M) b.value (B.sol s').get

/-! ### Space -/

/-- MA27 needs a finite amount of space, and what it suggests is more than it has got -/
structure Ma27Lib.Frugal {H : Type*} (L : Ma27Lib H K) : Prop where
  need : ∀ sys, ∃ n, ∀ la liw, n ≤ la → (L.factor sys la liw).1 ≠ -4
  grows : ∀ sys la liw, (L.factor sys la liw).1 = -4 → la < (L.factor sys la liw).2.1

/-- MA57 needs a finite amount of space -/
structure Ma57Lib.Frugal {H : Type*} (L : Ma57Lib H K) : Prop where
  real : ∀ sys, ∃ n, ∀ la lia, n ≤ la → (L.factor sys la lia).1 ≠ -3
  int : ∀ sys, ∃ n, ∀ la lia, n ≤ lia → (L.factor sys la lia).1 ≠ -4

/-- the call ends, however long it may take -/
def Ends {σ : Type*} (f : Nat → Call σ) : Prop := ∃ n, ∀ fuel ≥ n, f fuel ≠ .endless

end Sleqp

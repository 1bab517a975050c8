import Verif.Model.Spqr
import Verif.Spec.FactBackend
import Verif.Spec.AugJacDirect

/-!
Specification of SPQR and of what is expected of a QR factorization in every state it can be
brought into.
-/

namespace Sleqp
open Finset
variable {K : Type*} [Field K] [LinearOrder K]

/-- the columns of a matrix are linearly independent -/
def FullRank (m n : Nat) (A : Nat → Nat → K) : Prop :=
  ∀ x : Nat → K, (∀ i < m, ∑ k ∈ range n, A i k * x k = 0) → ∀ k < n, x k = 0

/-- `E` permutes the numbers below `n` -/
def PermutesBelow (n : Nat) (E : Nat → Nat) : Prop :=
  (∀ k < n, E k < n) ∧ ∀ k < n, ∀ k' < n, E k = E k' → k = k'

/-- `A E = Q [R; 0]` with an orthogonal matrix `Q`; `E` is a permutation of the columns -/
structure IsQr (m n : Nat) (A : Nat → Nat → K) (Q R : Nat → Nat → K) (E : Nat → Nat) : Prop where
  perm : PermutesBelow n E
  cols : ∀ l < m, ∀ l' < m, ∑ i ∈ range m, Q i l * Q i l' = if l = l' then 1 else 0
  rows : ∀ i < m, ∀ i' < m, ∑ l ∈ range m, Q i l * Q i' l = if i = i' then 1 else 0
  prod : ∀ i < m, ∀ k < n, A i (E k) = ∑ l ∈ range n, Q i l * R l k

/-- the functions of SPQR for a factor `h`, as documented: whatever is not null belongs to the
factorization `A E = Q [R; 0]` -/
structure SpqrLib.Serves {H : Type*} (L : SpqrLib H K) (h : H) (m n : Nat) (Q R : Nat → Nat → K) (E : Nat → Nat) : Prop where
  qx : ∀ x y, L.qmult false h m x = some y → y.size = m ∧ ∀ i < m, y.get i = ∑ l ∈ range m, Q i l * x l
  qtx : ∀ x y, L.qmult true h m x = some y → y.size = m ∧ ∀ i < m, y.get i = ∑ l ∈ range m, Q l i * x l
  rx : ∀ b y, L.solve .rx h m b = some y → n ≤ y.size ∧ ∀ k < n, ∑ l ∈ range n, R k l * y.get l = b k
  retx : ∀ b y, L.solve .retx h m b = some y → n ≤ y.size ∧ ∀ k < n, ∑ l ∈ range n, R k l * y.get (E l) = b k
  rtx : ∀ b y, L.solve .rtx h n b = some y → n ≤ y.size ∧ ∀ k < n, ∑ l ∈ range n, R l k * y.get l = b k

/-- SPQR computes a factorization of every matrix of full column rank it accepts -/
def SpqrLib.Correct {H : Type*} (L : SpqrLib H K) : Prop :=
  ∀ (s : CscSys K) (h : H), s.numCols ≤ s.numRows → FullRank s.numRows s.numCols s.entry → L.factor s = some h →
    ∃ Q R E, IsQr s.numRows s.numCols s.entry Q R E ∧ L.Serves h s.numRows s.numCols Q R E

/-- SPQR rejects matrices without full column rank -/
def SpqrLib.Rejects {H : Type*} (L : SpqrLib H K) : Prop :=
  ∀ s h, L.factor s = some h → FullRank s.numRows s.numCols s.entry

/-- no operation of SPQR fails -/
def SpqrLib.Total {H : Type*} (L : SpqrLib H K) : Prop :=
  (∀ t h n x, L.qmult t h n x ≠ none) ∧ ∀ t h n x, L.solve t h n x ≠ none

/-- SPQR never permutes columns -/
def SpqrLib.Natural {H : Type*} (L : SpqrLib H K) : Prop :=
  ∀ (s : CscSys K) (h : H), s.numCols ≤ s.numRows → FullRank s.numRows s.numCols s.entry → L.factor s = some h →
    ∃ Q R, IsQr s.numRows s.numCols s.entry Q R id ∧ L.Serves h s.numRows s.numCols Q R id

/-- a matrix `sleqp_qr_set_matrix` may be given -/
structure Mat.Tall (M : Mat K) : Prop where
  wf : M.WF
  tall : M.numCols ≤ M.numRows

/-- what may be asked after a matrix of `m` rows and `n` columns was set: the four operations -/
inductive QrBackend.Step {σ : Type*} (B : QrBackend σ K) (m n : Nat) (s s' : σ) : Prop
  | solveTri (b : Vec K) (x : Nat → K) : b.WF → b.dim = n → B.solveTri s b n = .okay (s', x) → Step B m n s s'
  | solveTriTrans (b : Vec K) (x : Nat → K) : b.WF → b.dim = n → B.solveTriTrans s b n = .okay (s', x) → Step B m n s s'
  | multOrth (b : Vec K) (x : Nat → K) : b.WF → b.dim = m → B.multOrth s b m = .okay (s', x) → Step B m n s s'
  | multOrthTrans (b : Vec K) (x : Nat → K) : b.WF → b.dim = m → B.multOrthTrans s b m = .okay (s', x) → Step B m n s s'

/-- the states a QR factorization can be brought into, with the matrix accepted last -/
inductive QrBackend.Reach {σ : Type*} (B : QrBackend σ K) : σ → Option (Mat K) → Prop
  | init : QrBackend.Reach B B.init none
  | set {s s' : σ} {m : Option (Mat K)} {M : Mat K} : QrBackend.Reach B s m → M.Tall →
      B.setMatrix s M = .okay s' → QrBackend.Reach B s' (some M)
  | setFails {s s' : σ} {m : Option (Mat K)} {M : Mat K} : QrBackend.Reach B s m → M.Tall →
      B.setMatrix s M = .raised s' → QrBackend.Reach B s' none
  | step {s s' : σ} {M : Mat K} : QrBackend.Reach B s (some M) → B.Step M.numRows M.numCols s s' → QrBackend.Reach B s' (some M)

/-- the states after any number of operations -/
inductive QrBackend.Steps {σ : Type*} (B : QrBackend σ K) (m n : Nat) (s : σ) : σ → Prop
  | none : QrBackend.Steps B m n s s
  | more {s' s'' : σ} : QrBackend.Steps B m n s s' → B.Step m n s' s'' → QrBackend.Steps B m n s s''

/-- In every state a matrix can be set without undefined behaviour.  Once it was accepted there is
one factorization `M = Q [R; 0]` all operations agree upon from then on, whatever their order. -/
def QrBackend.Reliable {σ : Type*} (B : QrBackend σ K) : Prop :=
  ∀ (s : σ) (m : Option (Mat K)), B.Reach s m → ∀ M : Mat K, M.Tall → B.setMatrix s M ≠ .ub ∧
    ∀ s1, B.setMatrix s M = .okay s1 → ∃ Q R, IsQr M.numRows M.numCols M.value Q R id ∧
      ∀ s2, B.Steps M.numRows M.numCols s1 s2 →
        (∀ b : Vec K, b.WF → b.dim = M.numCols → ∃ s3 x, B.solveTri s2 b M.numCols = .okay (s3, x) ∧
          ∀ k < M.numCols, ∑ l ∈ range M.numCols, R k l * x l = b.value k) ∧
        (∀ b : Vec K, b.WF → b.dim = M.numCols → ∃ s3 x, B.solveTriTrans s2 b M.numCols = .okay (s3, x) ∧
          ∀ k < M.numCols, ∑ l ∈ range M.numCols, R l k * x l = b.value k) ∧
        (∀ b : Vec K, b.WF → b.dim = M.numRows → ∃ s3 x, B.multOrth s2 b M.numRows = .okay (s3, x) ∧
          ∀ i < M.numRows, x i = ∑ l ∈ range M.numRows, Q i l * b.value l) ∧
        ∀ b : Vec K, b.WF → b.dim = M.numRows → ∃ s3 x, B.multOrthTrans s2 b M.numRows = .okay (s3, x) ∧
          ∀ i < M.numRows, x i = ∑ l ∈ range M.numRows, Q l i * b.value l

end Sleqp

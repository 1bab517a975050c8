import Verif.Model.AugJacDirect
import Verif.Spec.AugJac

/-! Specification of a QR factorization. -/

namespace Sleqp
open Finset
variable {K : Type*} [Field K] [LinearOrder K]

/-- `T` stores the transpose of the `s × n` matrix `A` -/
structure IsTransposed (n s : Nat) (A : Nat → Nat → K) (T : Mat K) : Prop where
  wf : T.WF
  rows : T.numRows = n
  cols : T.numCols = s
  entry : ∀ k < s, ∀ j < n, T.value j k = A k j

/-- the operations of `F` for the `n × s` matrix `T` are those of a factorization `T = Q [R; 0]`
with an orthogonal matrix `Q` and a regular matrix `R` -/
def Qr.Factors (F : Qr K) (T : Mat K) (n s : Nat) : Prop :=
  ∃ Q R : Nat → Nat → K,
    (∀ l < n, ∀ l' < n, ∑ i ∈ range n, Q i l * Q i l' = if l = l' then 1 else 0) ∧
    (∀ i < n, ∀ i' < n, ∑ l ∈ range n, Q i l * Q i' l = if i = i' then 1 else 0) ∧
    (∀ i < n, ∀ k < s, T.value i k = ∑ l ∈ range s, Q i l * R l k) ∧
    (∀ b : Vec K, b.WF → b.dim = s → ∀ k < s, ∑ l ∈ range s, R k l * F.solveTri T b l = b.value k) ∧
    (∀ b : Vec K, b.WF → b.dim = s → ∀ k < s, ∑ l ∈ range s, R l k * F.solveTriTrans T b l = b.value k) ∧
    (∀ b : Vec K, b.WF → b.dim = n → ∀ i < n, F.multOrth T b i = ∑ l ∈ range n, Q i l * b.value l) ∧
    (∀ b : Vec K, b.WF → b.dim = n → ∀ i < n, F.multOrthTrans T b i = ∑ l ∈ range n, Q l i * b.value l)

end Sleqp

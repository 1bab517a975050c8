import Verif.Spec.DerivCheck
import Mathlib.Analysis.Calculus.Deriv.Basic

/-! Specification: derivatives in the sense of calculus along a segment. -/

namespace Sleqp

/-- on `[0, h]`, `φ'` is the derivative of `φ` and varies by at most `L` -/
structure DerivAlong (φ φ' : ℝ → ℝ) (h L : ℝ) : Prop where
  deriv : ∀ t, 0 ≤ t → t ≤ h → HasDerivAt φ (φ' t) t
  vary : ∀ s t, 0 ≤ s → s ≤ h → 0 ≤ t → t ≤ h → |φ' s - φ' t| ≤ L

/-- the derivatives claimed are true along coordinate `j` from `x` on, and vary by at most `L` over the
step `h` -/
structure ExactAlong {n m : Nat} (d : DerivData n m ℝ) (x : Fin n → ℝ) (mu : Fin m → ℝ) (j : Fin n) (h L : ℝ) : Prop where
  obj : DerivAlong (fun t => d.f (shift x j t)) (fun t => d.g (shift x j t) j) h L
  cons : ∀ i, DerivAlong (fun t => d.c (shift x j t) i) (fun t => d.J (shift x j t) i j) h L
  hessObj : ∀ k, DerivAlong (fun t => d.g (shift x j t) k) (fun t => d.H (shift x j t) 0 k j) h L
  hessCons : ∀ i k, DerivAlong (fun t => d.J (shift x j t) i k)
    (fun t => d.H (shift x j t) (Pi.single i 1) k j - d.H (shift x j t) 0 k j) h L
  hessLagr : ∀ k, DerivAlong (fun t => d.lagr mu k (shift x j t)) (fun t => d.H (shift x j t) mu k j) h L

end Sleqp

import Verif.Model.TrlibCheck
import Verif.Props.DirCheck
import Verif.Props.Steihaug
import Mathlib.Tactic.LinearCombination

/-!
C131: the check of the optimality of steps computed by `trlib` in debug builds.
-/

namespace Sleqp
variable {K : Type*} [Field K] [LinearOrder K] [IsStrictOrderedRing K]
variable {n : Nat}
open Matrix

/-! ### lemmas -/

/-- equality in the inequality of Cauchy and Schwarz -/
theorem opposite_of_dot {v s : Fin n → K} {vn sn : K} (h1 : vn * vn = v ⬝ᵥ v) (h2 : sn * sn = s ⬝ᵥ s) (h0 : 0 < sn)
    (h : -(v ⬝ᵥ s) = vn * sn) : v = -((vn / sn) • s) := by
  have hz : (v + (vn / sn) • s) ⬝ᵥ (v + (vn / sn) • s) = 0 := by
    rw [dot_line, ← h1, ← h2]
    have hvs : v ⬝ᵥ s = -(vn * sn) := by rw [← h, neg_neg]
    rw [hvs]
    field_simp
    ring
  exact eq_neg_of_add_eq_zero_left (dot_self_zero hz)

theorem dot_of_opposite {v s : Fin n → K} {vn sn u : K} (h1 : vn * vn = v ⬝ᵥ v) (h2 : sn * sn = s ⬝ᵥ s) (hv : 0 ≤ vn) (hs : 0 ≤ sn)
    (hu : 0 ≤ u) (h : v = -(u • s)) : -(v ⬝ᵥ s) = vn * sn := by
  have hvn : vn = u * sn := by
    have : vn * vn = u * sn * (u * sn) := by
      rw [h1, h, neg_dotProduct_neg, smul_dotProduct, dotProduct_smul, ← h2]
      simp only [smul_eq_mul]
      ring
    rcases mul_self_eq_mul_self_iff.1 this with h | h
    · exact h
    · have := mul_nonneg hu hs
      linarith
  rw [h, neg_dotProduct, neg_neg, smul_dotProduct, ← h2, hvn, smul_eq_mul]
  ring

/-! ### property theorems -/

/-- C131: the check of steps computed by `trlib`. A step inside the trust region is accepted exactly if the norm of the projected gradient of the
model is at most the tolerance. A step `s ≠ 0` at the boundary is accepted if there is a multiplier `u ≥ 0` with
`P (g + B s) + u s = 0`; for the tolerance zero only such steps are accepted.
This is for `zero_eps = 0`. For a positive tolerance a step at the boundary of a small trust region is accepted
whatever its direction (`C131_trlib_violated`). -/
theorem C131_trlib_partial {q : TrProblem n K} {e : TrEnv K} {grad : Vec K} (he : TrFor q e grad) {eps : K} (heps : 0 ≤ eps) {step : Vec K}
    (hs : step.WF ∧ step.dim = n) :
    (∃ b, trlibCheck e eps grad step false = some b ∧
      (b = true ↔ (q.P *ᵥ (q.g + q.B *ᵥ dense n step)) ⬝ᵥ (q.P *ᵥ (q.g + q.B *ᵥ dense n step)) ≤ eps * eps)) ∧
    (dense n step ≠ 0 → ∃ b, trlibCheck e eps grad step true = some b ∧
      ((∃ u : K, 0 ≤ u ∧ q.P *ᵥ (q.g + q.B *ᵥ dense n step) = -(u • dense n step)) → b = true) ∧
      (eps = 0 → b = true → ∃ u : K, 0 ≤ u ∧ q.P *ᵥ (q.g + q.B *ᵥ dense n step) = -(u • dense n step))) := by
  obtain ⟨h, h1, h2, h3⟩ := he.hp step e.work hs
  obtain ⟨g, g1, g2, g3⟩ := addScaled_dense (r0 := e.work) (1 : K) 1 he.gradOk h2
  obtain ⟨v, v1, v2, v3⟩ := he.proj g e.work g2
  rw [g3, h3, he.gradQ, one_smul, one_smul] at v3
  have hvn := he.sqrt v.normSq (by rw [normSq_dense v2]; exact dot_self_nonneg _)
  have hsn := he.sqrt step.normSq (by rw [normSq_dense hs]; exact dot_self_nonneg _)
  rw [← v3]
  have hrun : ∀ b, trlibCheck e eps grad step b = if b then trlibBdryTest eps (e.sqrt v.normSq) (e.sqrt step.normSq) v step
      else some (isZero (e.sqrt v.normSq) eps) := by
    intro b
    unfold trlibCheck
    rw [h1, Option.bind_some, he.zeroEps, g1, Option.bind_some, v1, Option.bind_some]
  obtain ⟨vn, hvn'⟩ : ∃ x, x = e.sqrt v.normSq := ⟨_, rfl⟩
  obtain ⟨sn, hsn'⟩ : ∃ x, x = e.sqrt step.normSq := ⟨_, rfl⟩
  rw [← hvn', normSq_dense v2] at hvn
  rw [← hsn', normSq_dense hs] at hsn
  rw [← hvn', ← hsn'] at hrun
  refine ⟨⟨_, hrun false, ?_⟩, fun hne => ?_⟩
  · unfold isZero
    rw [decide_eq_true_iff, abs_of_nonneg hvn.1, ← hvn.2]
    exact ⟨fun h => mul_self_le_mul_self hvn.1 h, fun h => abs_le_of_sq_le_sq' (by rw [sq, sq]; exact h) heps |>.2⟩
  · have hpos : 0 < sn := by
      refine lt_of_le_of_ne hsn.1 fun h => hne (dot_self_zero ?_)
      rw [← hsn.2, ← h, mul_zero]
    rw [hrun true, if_pos rfl]
    unfold trlibBdryTest
    by_cases hz : isZero vn eps = true
    · rw [if_pos hz]
      refine ⟨true, rfl, fun _ => rfl, fun h0 _ => ⟨0, le_rfl, ?_⟩⟩
      unfold isZero at hz
      rw [decide_eq_true_iff, h0, abs_nonpos_iff] at hz
      rw [zero_smul, neg_zero]
      exact dot_self_zero (by rw [← hvn.2, hz, mul_zero])
    · rw [if_neg hz, dot_dense v2 hs, Option.bind_some, if_pos hpos]
      refine ⟨_, rfl, ?_, ?_⟩
      · rintro ⟨u, u1, u2⟩
        rw [isEq_iff_close, dot_of_opposite hvn.2 hsn.2 hvn.1 hsn.1 u1 u2]
        exact close_self heps _
      · intro h0 hb
        rw [isEq_iff_close] at hb
        unfold Close at hb
        rw [h0, zero_mul, abs_nonpos_iff, sub_eq_zero] at hb
        exact ⟨vn / sn, div_nonneg hvn.1 hsn.1, opposite_of_dot hvn.2 hsn.2 hpos hb⟩

-- non-vacuity: the step against the gradient to the boundary is accepted
example (eps : ℝ) (he : 0 ≤ eps) : trlibCheck (exTr 3 0 (-1)) eps exTrGrad (exTrGrad.scale (-1)) true = some true := by
  obtain ⟨s1, s2⟩ := scale_dense exTrGrad_ok (-1 : ℝ)
  obtain ⟨-, h⟩ := C131_trlib_partial (exTr_for 0 (-1) exTrGrad_ok) he s1
  have hB : (exTrProblem 0 (dense 3 exTrGrad)).B *ᵥ dense 3 (exTrGrad.scale (-1)) = 0 := by simp [exTrProblem]
  have hP : ∀ x, (exTrProblem 0 (dense 3 exTrGrad)).P *ᵥ x = x := fun x => by simp [exTrProblem]
  have hne : dense 3 (exTrGrad.scale (-1)) ≠ 0 := by
    intro h0
    have e0 : dense 3 exTrGrad 0 = 1 := by norm_num [dense, exTrGrad, Vec.value, valAt, at?]
    have := congrFun h0 0
    rw [s2] at this
    norm_num [e0] at this
  obtain ⟨b, b1, b2, -⟩ := h hne
  rw [b1, b2 ⟨1, zero_le_one, ?_⟩]
  rw [hB, hP, add_zero, s2, one_smul, neg_one_smul, neg_neg]
  rfl

/-- sample step `1/1000` in one variable -/
noncomputable def exUphill : Vec ℝ := ⟨1, 1, [(0, 1 / 1000)]⟩

/-- sample gradient `1` in one variable -/
noncomputable def exSlope : Vec ℝ := ⟨1, 1, [(0, 1)]⟩

/-- The check of steps at the boundary of the trust region in debug builds compares the scalar product of step and gradient with the
product of their norms up to the tolerance, which is not scaled with the radius if this is small: with the tolerance `1/100`, the gradient 1, the Hessian zero
and the radius `1/1000`, the step `1/1000`, which goes uphill and is the worst in the trust region, is accepted (tr/trlib_solver.c:228). -/
theorem C131_trlib_violated : ∃ (q : TrProblem 1 ℝ) (e : TrEnv ℝ) (grad step : Vec ℝ), TrFor q e grad ∧ (step.WF ∧ step.dim = 1) ∧
    dense 1 step ⬝ᵥ dense 1 step = 1 / 1000 * (1 / 1000) ∧ trlibCheck e (1 / 100) grad step true = some true ∧
    ∀ p : Fin 1 → ℝ, p ⬝ᵥ p < 1 / 1000 * (1 / 1000) → q.val p < q.val (dense 1 step) := by
  have hg : exSlope.WF ∧ exSlope.dim = 1 := ⟨⟨by simp [exSlope, Srt], by simp [exSlope], by simp [exSlope]⟩, rfl⟩
  have hs : exUphill.WF ∧ exUphill.dim = 1 := ⟨⟨by simp [exUphill, Srt], by simp [exUphill], by simp [exUphill]⟩, rfl⟩
  have hf := exTr_for 0 (-1) hg
  have dg : dense 1 exSlope 0 = 1 := by norm_num [dense, exSlope, Vec.value, valAt, at?]
  have ds : dense 1 exUphill 0 = 1 / 1000 := by norm_num [dense, exUphill, Vec.value, valAt, at?]
  refine ⟨exTrProblem 0 (dense 1 exSlope), exTr 1 0 (-1), exSlope, exUphill, hf, hs, ?_, ?_, ?_⟩
  · simp only [dotProduct, Finset.univ_unique, Fin.default_eq_zero, Finset.sum_singleton, ds]
  · obtain ⟨h, h1, h2, h3⟩ := hf.hp exUphill (exTr 1 0 (-1)).work hs
    obtain ⟨g, g1, g2, g3⟩ := addScaled_dense (r0 := (exTr 1 0 (-1)).work) (1 : ℝ) 1 hg h2
    have hP : ∀ x, (exTrProblem 0 (dense 1 exSlope)).P *ᵥ x = x := fun x => by simp [exTrProblem]
    have hB : ∀ x, (exTrProblem 0 (dense 1 exSlope)).B *ᵥ x = 0 := fun x => by simp [exTrProblem]
    obtain ⟨v, v1, v2, v3⟩ := hf.proj g (exTr 1 0 (-1)).work g2
    have dv : dense 1 v 0 = 1 := by rw [v3, hP, g3, h3, hB, smul_zero, add_zero, one_smul, dg]
    have hvv : v.normSq = 1 := by
      rw [normSq_dense v2]
      simp only [dotProduct, Finset.univ_unique, Fin.default_eq_zero, Finset.sum_singleton, dv, mul_one]
    have hss : exUphill.normSq = 1 / 1000 * (1 / 1000) := by
      rw [normSq_dense hs]
      simp only [dotProduct, Finset.univ_unique, Fin.default_eq_zero, Finset.sum_singleton, ds]
    have hvs : v.dot exUphill = some (1 / 1000) := by
      rw [dot_dense v2 hs]
      simp only [dotProduct, Finset.univ_unique, Fin.default_eq_zero, Finset.sum_singleton, ds, dv, one_mul]
    have hsq : (exTr 1 0 (-1)).sqrt = Real.sqrt := rfl
    unfold trlibCheck trlibBdryTest
    rw [h1, Option.bind_some, hf.zeroEps, g1, Option.bind_some, v1, Option.bind_some, if_pos rfl, hvv, hss, hvs, Option.bind_some, hsq,
      Real.sqrt_mul_self (by norm_num), Real.sqrt_one]
    rw [if_neg (by norm_num [isZero]), if_pos (by norm_num), isEq]
    rw [decide_eq_true]
    norm_num [relDiff]
  · intro p hp
    have hB : ∀ x, (exTrProblem 0 (dense 1 exSlope)).B *ᵥ x = 0 := fun x => by simp [exTrProblem]
    unfold TrProblem.val
    rw [hB, hB, dotProduct_zero, dotProduct_zero]
    show dense 1 exSlope ⬝ᵥ p + _ < dense 1 exSlope ⬝ᵥ _ + _
    simp only [dotProduct, Finset.univ_unique, Fin.default_eq_zero, Finset.sum_singleton, ds, dg] at hp ⊢
    nlinarith

end Sleqp

import Verif.Model.NewtonLog
import Verif.Props.Steihaug
import Verif.Spec.NewtonLog
import Mathlib.Tactic.LinearCombination

/-!
C132 (the report about Newton steps in the log).
-/

namespace Sleqp
variable {K : Type*} [Field K] [LinearOrder K] [IsStrictOrderedRing K]
variable {n : Nat}
open Matrix

/-! ### lemmas -/

theorem infNorm_largest {v : Vec K} (hv : VOk n v) : IsLargest (dense n v) v.infNorm := by
  obtain ⟨h1, h2⟩ := C03_inf_norm v hv.1
  refine ⟨fun i => h1 i, ?_⟩
  rcases h2 with h | ⟨i, hi, h⟩
  · exact Or.inl h
  · exact Or.inr ⟨⟨i, by rw [← hv.2]; exact hi⟩, h⟩

theorem largest_zero {r : K} (h : IsLargest (0 : Fin n → K) r) : r = 0 := by
  rcases h.2 with h | ⟨i, h⟩
  · exact h
  · rw [h, Pi.zero_apply, abs_zero]

/-- the residuum of feasibility vanishes for steps in the null space -/
theorem projResiduum_zero {q : TrProblem n K} {e : TrEnv K} {grad : Vec K} (he : TrFor q e grad) {step : Vec K} (hs : VOk n step)
    (hP : q.P *ᵥ dense n step = dense n step) : projResiduum e step = some 0 := by
  obtain ⟨p, p1, p2, p3⟩ := he.proj step e.work hs
  obtain ⟨r, r1, r2, r3⟩ := addScaled_dense (r0 := e.work) (1 : K) (-1) p2 hs
  unfold projResiduum
  rw [p1, Option.bind_some, he.zeroEps, r1, Option.map_some]
  have h := infNorm_largest r2
  rw [r3, p3, hP, one_smul, neg_one_smul, add_neg_cancel] at h
  rw [largest_zero h]

/-- the residuum of stationarity is the largest coordinate of the residuum of the optimality conditions for the multiplier given -/
theorem statResiduum_spec {q : TrProblem n K} {e : TrEnv K} {grad : Vec K} (he : TrFor q e grad) {step : Vec K} (hs : VOk n step) (u : K) :
    ∃ r, statResiduum e grad step u = some r ∧ IsLargest (q.residuum (dense n step) u) r := by
  obtain ⟨h, h1, h2, h3⟩ := he.hp step e.work hs
  obtain ⟨s, s1, s2, s3⟩ := addScaled_dense (r0 := e.work) (1 : K) 1 h2 he.gradOk
  obtain ⟨t, t1, t2, t3⟩ := addScaled_dense (r0 := e.work) (1 : K) u s2 hs
  obtain ⟨p, p1, p2, p3⟩ := he.proj t e.work t2
  refine ⟨p.infNorm, ?_, ?_⟩
  · unfold statResiduum
    rw [h1, Option.bind_some, he.zeroEps, s1, Option.bind_some, t1, Option.bind_some, p1, Option.map_some]
  · have := infNorm_largest p2
    rw [p3, t3, s3, h3, he.gradQ, one_smul, one_smul, one_smul, add_comm (q.B *ᵥ _)] at this
    exact this

theorem sqrt_le_radius {x s radius : K} (h0 : 0 ≤ s) (hs : s * s = x) (hr : 0 < radius) (h : x ≤ radius * radius) : s ≤ radius := by
  by_contra hc
  rw [not_le] at hc
  have := mul_lt_mul'' hc hc hr.le hr.le
  rw [hs] at this
  exact absurd h (not_le.2 this)

/-! ### property theorems -/

/-- C132: for every step computed by the solver (and not stopped by the time limit) the report is made, no assertion fails, and it
gives the residuum of feasibility as zero. A warning about stationarity is printed exactly if the value printed reaches the tolerance. If
there is a multiplier of the trust region, then the step lies on the boundary, the multiplier is nonnegative, and the value printed is the
size of the residuum of the optimality conditions; the same is true of a zero step, for which the multiplier does not matter.
This is for `zero_eps = 0`; a positive drop tolerance is missing, and so are nonzero steps without multiplier, for which
it fails (`C132_interior_violated`). -/
theorem C132_report_partial {q : TrProblem n K} (hq : q.Valid) {e : TrEnv K} {grad newton : Vec K} (he : TrFor q e grad)
    (hn : newton.WF ∧ newton.dim = n) {radius : K} (hr : 0 < radius) (htol : 0 < e.relTol) (fuel : Nat) {res : TrResult K}
    (h : steihaug e fuel grad newton radius = some res) (ht : res.timeout = false) (psd : Bool) (eps statTol : K) :
    ∃ r, newtonReport e psd eps statTol grad radius res = some (some r) ∧ r.feas = 0 ∧ (r.warned = true ↔ statTol ≤ r.stat) ∧
      (∀ u, res.dual = some u → 0 ≤ u ∧ dense n res.step ⬝ᵥ dense n res.step = radius * radius ∧
        IsLargest (q.residuum (dense n res.step) u) r.stat) ∧
      (dense n res.step = 0 → IsLargest (q.residuum (dense n res.step) 0) r.stat) := by
  obtain ⟨h1, h2, h3, -⟩ := C48_step_partial hq he hn hr htol fuel h
  obtain ⟨y1, y2, -⟩ := C48_rayleigh_partial hq he hn hr htol fuel h
  obtain ⟨s, s1, s2⟩ := statResiduum_spec he h1 (dualValue res.dual)
  have hsq := he.sqrt res.step.normSq (by rw [normSq_dense h1]; exact dot_self_nonneg _)
  have hle : e.sqrt res.step.normSq ≤ radius := sqrt_le_radius hsq.1 hsq.2 hr (by rw [normSq_dense h1]; exact h2)
  refine ⟨⟨max (max (e.sqrt res.step.normSq - radius) 0) 0, s, decide (statTol ≤ s), psd && isNeg res.ray.lo eps⟩, ?_, ?_, ?_, ?_, ?_⟩
  · unfold newtonReport checkSpectrum printResiduals
    rw [ht, if_neg (by simp), if_pos (y1.trans y2), Option.bind_some, projResiduum_zero he h1 h3, Option.bind_some, s1]
    rfl
  · show max (max (e.sqrt res.step.normSq - radius) 0) 0 = 0
    rw [max_eq_right (sub_nonpos.2 hle), max_self]
  · exact decide_eq_true_iff
  · intro u hu
    obtain ⟨d1, d2, -⟩ := C48_dual_partial hq he hn hr htol fuel h hu
    rw [hu] at s2
    exact ⟨d2, d1, s2⟩
  · intro h0
    show IsLargest _ s
    rw [h0] at s2 ⊢
    unfold TrProblem.residuum at s2 ⊢
    rwa [smul_zero] at s2 ⊢

/-- C132: a warning about a negative Rayleigh quotient is only printed if the function is declared to have positive semidefinite
Hessians and the Hessian is not even so on the null space of the working set: there is a nonzero direction `d` in it
with `d · B d < -eps ‖d‖²`.
This is for `zero_eps = 0`; a positive drop tolerance is missing. -/
theorem C132_spectrum_partial {q : TrProblem n K} (hq : q.Valid) {e : TrEnv K} {grad newton : Vec K} (he : TrFor q e grad)
    (hn : newton.WF ∧ newton.dim = n) {radius : K} (hr : 0 < radius) (htol : 0 < e.relTol) (fuel : Nat) {res : TrResult K}
    (h : steihaug e fuel grad newton radius = some res) (psd : Bool) {eps statTol : K} (heps : 0 ≤ eps) {r : NewtonReport K}
    (hrep : newtonReport e psd eps statTol grad radius res = some (some r)) (hw : r.negative = true) :
    psd = true ∧ ∃ d, d ≠ 0 ∧ q.P *ᵥ d = d ∧ d ⬝ᵥ q.B *ᵥ d < -eps * (d ⬝ᵥ d) := by
  obtain ⟨y1, y2, y3⟩ := C48_rayleigh_partial hq he hn hr htol fuel h
  have hneg : r.negative = (psd && isNeg res.ray.lo eps) := by
    unfold newtonReport checkSpectrum printResiduals at hrep
    by_cases ht : res.timeout = true
    · rw [if_pos ht] at hrep; simp at hrep
    · rw [if_neg ht, if_pos (y1.trans y2), Option.bind_some, Option.map_eq_some_iff] at hrep
      obtain ⟨r', h1, h2⟩ := hrep
      rw [Option.some_inj] at h2
      subst h2
      rw [Option.bind_eq_some_iff] at h1
      obtain ⟨p, -, h1⟩ := h1
      rw [Option.map_eq_some_iff] at h1
      obtain ⟨s, -, h1⟩ := h1
      rw [← h1]
  rw [hneg, Bool.and_eq_true] at hw
  have hlo : res.ray.lo < -eps := of_decide_eq_true hw.2
  refine ⟨hw.1, ?_⟩
  rcases y3 _ (Or.inl rfl) with h1 | ⟨d, d1, d2, d3⟩
  · exfalso
    rw [h1] at hlo
    linarith [zero_lt_one (α := K)]
  · have hpos : 0 < d ⬝ᵥ d := lt_of_le_of_ne (dot_self_nonneg _) fun h => d1 (dot_self_zero h.symm)
    exact ⟨d, d1, d2, by rw [← d3]; exact mul_lt_mul_of_pos_right hlo hpos⟩

/-- C132: the warning about Rayleigh quotients never appears if the Hessian is positive semidefinite on the null space.
This is for `zero_eps = 0`; a positive drop tolerance is missing. -/
theorem C132_psd_partial {q : TrProblem n K} (hq : q.Valid) {e : TrEnv K} {grad newton : Vec K} (he : TrFor q e grad)
    (hn : newton.WF ∧ newton.dim = n) {radius : K} (hr : 0 < radius) (htol : 0 < e.relTol) (fuel : Nat) {res : TrResult K}
    (h : steihaug e fuel grad newton radius = some res) (psd : Bool) {eps statTol : K} (heps : 0 ≤ eps) {r : NewtonReport K}
    (hrep : newtonReport e psd eps statTol grad radius res = some (some r)) (hB : ∀ d, q.P *ᵥ d = d → 0 ≤ d ⬝ᵥ q.B *ᵥ d) :
    r.negative = false := by
  by_contra hc
  rw [Bool.not_eq_false] at hc
  obtain ⟨-, d, -, d2, d3⟩ := C132_spectrum_partial hq he hn hr htol fuel h psd heps hrep hc
  have := mul_nonneg heps (dot_self_nonneg d)
  linarith [hB d d2]

-- non-vacuity: a run on the sample problem, for any factor of the Hessian
example (b : ℝ) : ∃ res r, steihaug (exTr 3 b (-1)) 4 exTrGrad (Vec.create 3 0) 2 = some res ∧
    newtonReport (exTr 3 b (-1)) true (1 / 10) 1 exTrGrad 2 res = some (some r) ∧ r.feas = 0 := by
  have hf := exTr_for b (-1) exTrGrad_ok
  obtain ⟨res, h⟩ := C48_terminates_partial (exTr_valid b _) hf (create_ok 3 0) (radius := 2) (by norm_num) (by norm_num [exTr])
  have ht := (C48_stationary_partial (exTr_valid b _) hf (create_ok 3 0) (radius := 2) (by norm_num) (by norm_num [exTr])
    ⟨Or.inl rfl, fun _ => rfl⟩ (h 4 (by norm_num))).1
  obtain ⟨r, r1, r2, -⟩ := C132_report_partial (exTr_valid b _) hf (create_ok 3 0) (radius := 2) (by norm_num) (by norm_num [exTr]) 4
    (h 4 (by norm_num)) ht true (1 / 10) 1
  exact ⟨res, r, h 4 (by norm_num), r1, r2⟩

/-- The log warns about Newton steps which are right: the solver of the trust-region subproblem leaves the value `SLEQP_NONE`, which
is −1, for the multiplier of the trust region unless the step is cut off at the boundary, and this value is used as the multiplier when the
residuum is computed (tr/steihaug_solver.c:246, newton.c:261-266). With the identity as Hessian, the gradient `(1, 0, -2)`, radius 10 and tolerance 1,
the step lies inside the trust region and its residuum is shorter than 1/100, but the value printed is 2 and the warning appears. -/
theorem C132_interior_violated : ∃ (q : TrProblem 3 ℝ) (e : TrEnv ℝ) (grad newton : Vec ℝ) (res : TrResult ℝ) (r : NewtonReport ℝ),
    q.Valid ∧ TrFor q e grad ∧ (newton.WF ∧ newton.dim = 3) ∧ e.relTol = 1 / 100 * 1 ∧ NoLimit 3 e ∧
    steihaug e 4 grad newton 10 = some res ∧ dense 3 res.step ⬝ᵥ dense 3 res.step < 10 * 10 ∧
    q.residuum (dense 3 res.step) 0 ⬝ᵥ q.residuum (dense 3 res.step) 0 < 1 / 100 * (1 / 100) ∧
    newtonReport e false 0 1 grad 10 res = some (some r) ∧ r.stat = 2 ∧ r.warned = true := by
  have hgg : dense 3 exTrGrad ⬝ᵥ dense 3 exTrGrad = 5 := by
    rw [← normSq_dense exTrGrad_ok]
    norm_num [exTrGrad, Vec.normSq]
  have hq := exTr_valid 1 (dense 3 exTrGrad)
  have hf := exTr_for 1 (-1) exTrGrad_ok
  have hl : NoLimit 3 (exTr 3 1 (-1)) := ⟨Or.inl rfl, fun _ => rfl⟩
  have htol : 0 < (exTr 3 1 (-1)).relTol := by norm_num [exTr]
  have hP : ∀ x, (exTrProblem 1 (dense 3 exTrGrad)).P *ᵥ x = x := fun x => by simp [exTrProblem]
  have hB : ∀ x, (exTrProblem 1 (dense 3 exTrGrad)).B *ᵥ x = x := fun x => by simp [exTrProblem]
  have hg : (exTrProblem 1 (dense 3 exTrGrad)).g = dense 3 exTrGrad := rfl
  obtain ⟨res, h⟩ := C48_terminates_partial hq hf (create_ok 3 0) (radius := 10) (by norm_num) htol
  have h := h 4 (by norm_num)
  obtain ⟨s1, s2, s3, s4⟩ := C48_step_partial hq hf (create_ok 3 0) (radius := 10) (by norm_num) htol 4 h
  obtain ⟨t1, t2⟩ := C48_stationary_partial hq hf (create_ok 3 0) (radius := 10) (by norm_num) htol hl h
  have hb : dense 3 res.step ⬝ᵥ dense 3 res.step ≠ 10 * 10 := by
    intro hb
    unfold TrProblem.val at s4
    rw [hB, hg, hb] at s4
    have h0 := dot_self_nonneg (dense 3 res.step + (10 : ℝ) • dense 3 exTrGrad)
    rw [add_dotProduct, dotProduct_add, dotProduct_add, smul_dotProduct, dotProduct_smul, smul_dotProduct, dotProduct_smul, hb, hgg,
      dotProduct_comm (dense 3 res.step)] at h0
    simp only [smul_eq_mul] at h0
    linarith
  have hd : res.dual = none := by
    rcases hd : res.dual with _ | u
    · rfl
    · exact absurd (C48_dual_partial hq hf (create_ok 3 0) (radius := 10) (by norm_num) htol 4 h hd).1 hb
  obtain ⟨r, r1, -, r3, -⟩ := C132_report_partial hq hf (create_ok 3 0) (radius := 10) (by norm_num) htol 4 h t1 false 0 1
  obtain ⟨v, v1, v2⟩ := statResiduum_spec hf s1 (dualValue res.dual)
  have hv : r.stat = v := by
    obtain ⟨y1, y2, -⟩ := C48_rayleigh_partial hq hf (create_ok 3 0) (radius := 10) (by norm_num) htol 4 h
    unfold newtonReport checkSpectrum printResiduals at r1
    rw [t1, if_neg (by simp), if_pos (y1.trans y2), Option.bind_some, projResiduum_zero hf s1 s3, Option.bind_some, v1, Option.map_some,
      Option.map_some, Option.some_inj, Option.some_inj] at r1
    rw [← r1]
  have hres : (exTrProblem 1 (dense 3 exTrGrad)).residuum (dense 3 res.step) (dualValue res.dual) = dense 3 exTrGrad := by
    unfold TrProblem.residuum
    rw [hP, hB, hg, hd]
    show _ + _ + (-1 : ℝ) • _ = _
    rw [neg_one_smul, add_neg_cancel_right]
  have h2 : r.stat = 2 := by
    rw [hv]
    rw [hres] at v2
    have e0 : dense 3 exTrGrad 0 = 1 := by norm_num [dense, exTrGrad, Vec.value, valAt, at?]
    have e1 : dense 3 exTrGrad 1 = 0 := by norm_num [dense, exTrGrad, Vec.value, valAt, at?]
    have e2 : dense 3 exTrGrad 2 = -2 := by norm_num [dense, exTrGrad, Vec.value, valAt, at?]
    have hle := v2.1 2
    rw [e2] at hle
    norm_num at hle
    rcases v2.2 with h0 | ⟨i, hi⟩
    · linarith
    · fin_cases i
      · simp only [Fin.zero_eta, e0] at hi; norm_num at hi; linarith
      · simp only [Fin.mk_one, e1] at hi; norm_num at hi; linarith
      · simp only [Fin.reduceFinMk, e2] at hi; norm_num at hi; exact hi
  refine ⟨_, exTr 3 1 (-1), exTrGrad, Vec.create 3 0, res, r, hq, hf, create_ok 3 0, by norm_num [exTr], hl, h, lt_of_le_of_ne s2 hb, ?_,
    r1, h2, r3.2 (by rw [h2]; norm_num)⟩
  have := t2.resolve_left hb
  unfold TrProblem.residuum
  rw [zero_smul, add_zero]
  exact this

end Sleqp

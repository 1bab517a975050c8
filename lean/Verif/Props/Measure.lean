import Verif.Spec.Measure
import Verif.Props.DirectionEps
import Mathlib.Algebra.BigOperators.Field
import Mathlib.Tactic.Linarith
import Mathlib.Tactic.Positivity

/-!
C124: the figures about trial points in the debug log.
-/

namespace Sleqp
variable {K : Type*} [Field K] [LinearOrder K] [IsStrictOrderedRing K]
variable {n m : Nat}
open Matrix

/-! ### lemmas -/

theorem setCons_spec {q : LocalModel n m K} {e : MeritEnv K} (he : EnvNear q e) {s : Measure K} (hs : MeasureFor e s) {D : Dir K}
    (hj : VOk m D.consJac) {ct : Vec K} (hct : VOk m ct) :
    ∃ (x y : Vec K), e.cons.addScaled D.consJac 1 1 e.zeroEps s.expCons = some x ∧ VOk m x ∧ VOk m y ∧
      (∀ i, |dense m x i - (q.c i + dense m D.consJac i)| ≤ e.zeroEps) ∧
      (∀ i, |dense m y i - (dense m x i - dense m ct i)| ≤ e.zeroEps) ∧
      s.setCons e.cons ct D = some { s with
        expCons := x
        consNonlin := (cdiv 2 s.normSq).map fun r => y.scale r
        curViol := q.violAt q.c
        expViol := q.violAt (dense m x)
        trialViol := q.violAt (dense m ct) } := by
  have hd := he.data
  have hc : VOk m e.cons := hd.okC
  have hcv : dense m e.cons = q.c := hd.c
  obtain ⟨x, x1, x2, x3⟩ := addScaled_near (r0 := s.expCons) (1 : K) 1 he.eps hc hj
  obtain ⟨y, y1, y2, y3⟩ := addScaled_near (r0 := s.nonlinBuf) (1 : K) (-1) he.eps x2 hct
  have ht : ∀ {c : Vec K}, VOk m c → totalViolation e.numCons c e.consLb e.consUb = some (q.violAt (dense m c)) := fun hc => total_dense hd hc
  refine ⟨x, y, x1, x2, y2, fun i => ?_, fun i => ?_, ?_⟩
  · have := x3 i
    rwa [one_mul, one_mul, hcv] at this
  · have := y3 i
    rwa [one_mul, neg_one_mul, ← sub_eq_add_neg] at this
  · unfold Measure.setCons
    rw [hs.eps, x1, Option.bind_some, y1, Option.bind_some, hs.num, hs.lb, hs.ub, ht hc, Option.bind_some, ht x2, Option.bind_some, ht hct,
      Option.bind_some, hcv]

/-- everything stored after the two iterates, the direction and the penalty have been set -/
theorem report_spec {q : LocalModel n m K} {e : MeritEnv K} (he : EnvNear q e) (hpen : 0 < q.penalty) {s : Measure K} (hs : MeasureFor e s)
    {D : Dir K} {d : Fin n → K} {δ : DirErr K} (h : DirNear q D d δ) {t : K} {ct : Vec K} (hct : VOk m ct) {y : Vec K} (hy : VOk m y)
    (cutoff ratioEps : K) (lsq : Bool) (hcut : 0 ≤ cutoff) :
    ∃ (x z : Vec K) (s' : Measure K) (r : TrialReport K), e.cons.addScaled D.consJac 1 1 e.zeroEps s.expCons = some x ∧ VOk m x ∧ VOk m z ∧
      (∀ i, |dense m x i - (q.c i + dense m D.consJac i)| ≤ e.zeroEps) ∧
      (∀ i, |dense m z i - (dense m x i - dense m ct i)| ≤ e.zeroEps) ∧
      s.report e.objVal e.cons t ct D q.penalty cutoff ratioEps lsq y = some (s', r) ∧
      MeasureFor e s' ∧ s'.penalty = q.penalty ∧ s'.curObj = q.f ∧ s'.curViol = q.violAt q.c ∧ s'.trialObj = t ∧
      s'.trialViol = q.violAt (dense m ct) ∧
      r.merit = shown (q.f + q.penalty * q.violAt q.c)
        (q.f + D.objGrad + q.penalty * q.violAt (dense m x) + 1 / 2 * (dense n D.primal ⬝ᵥ dense n D.hess))
        (t + q.penalty * q.violAt (dense m ct)) ∧
      r.ratio = reductionRatio ratioEps (r.merit.current - r.merit.actual) (r.merit.current - r.merit.expected) ∧
      (r.objective = if lsq then some (shown q.f (q.f + D.objGrad + 1 / 2 * (dense n D.primal ⬝ᵥ dense n D.hess)) t) else none) ∧
      (r.violation = if lsq then some (shown (q.violAt q.c) (q.violAt (dense m x)) (q.violAt (dense m ct))) else none) ∧
      r.nonlin = (if cutoff * cutoff < dense n D.primal ⬝ᵥ dense n D.primal then
        some ((q.f + D.objGrad - t) * (2 / (dense n D.primal ⬝ᵥ dense n D.primal)),
          (z.scale (2 / (dense n D.primal ⬝ᵥ dense n D.primal))).infNorm,
          (q.f + D.objGrad - t) * (2 / (dense n D.primal ⬝ᵥ dense n D.primal))
            + dense m (z.scale (2 / (dense n D.primal ⬝ᵥ dense n D.primal))) ⬝ᵥ dense m y) else none) := by
  have hf : e.objVal = q.f := he.data.f
  have hpr : VOk n D.primal := h.okP
  have hdot := dot_dense h.okP h.okH
  have hnorm : D.primal.normSq = dense n D.primal ⬝ᵥ dense n D.primal := normSq_dense hpr
  obtain ⟨x, z, x0, hx, hz, x1, z1, hset⟩ := setCons_spec he
    (s := ({ s with normSq := D.primal.normSq, hessProd := dense n D.primal ⬝ᵥ dense n D.hess } : Measure K).setObj e.objVal t D)
    ⟨hs.num, hs.lb, hs.ub, hs.eps⟩ h.okC hct
  have hcore0 : s.setIterates e.objVal e.cons t ct D = (({ s with normSq := D.primal.normSq, hessProd := dense n D.primal ⬝ᵥ dense n D.hess } :
      Measure K).setObj e.objVal t D).setCons e.cons ct D := by
    unfold Measure.setIterates
    rw [hdot, Option.bind_some]
  have hcore := hcore0.trans hset
  obtain ⟨N, hN⟩ : ∃ N, N = dense n D.primal ⬝ᵥ dense n D.primal := ⟨_, rfl⟩
  obtain ⟨S, hS⟩ : ∃ S : Measure K, S = ⟨s.numCons, s.consLb, s.consUb, s.zeroEps, q.penalty, N, q.f, q.f + D.objGrad,
    dense n D.primal ⬝ᵥ dense n D.hess, t, x, q.violAt q.c, q.violAt (dense m x), q.violAt (dense m ct),
    (cdiv 2 N).map fun r => (q.f + D.objGrad - t) * r, (cdiv 2 N).map fun r => z.scale r⟩ := ⟨_, rfl⟩
  have hrep : s.report e.objVal e.cons t ct D q.penalty cutoff ratioEps lsq y = (S.reportTrial cutoff ratioEps lsq y).map fun r => (S, r) := by
    unfold Measure.report
    rw [hcore, Option.bind_some, Measure.setPenalty, if_pos hpen, Option.bind_some, hS, hN, ← hnorm, ← hf]
    rfl
  have hSN : S.normSq = N := by rw [hS]
  have hlines : ∀ nl, ∃ r, r = (if lsq then S.reportLsq ratioEps nl else S.reportFunc ratioEps nl) ∧ r.merit = shown (q.f + q.penalty * q.violAt q.c)
        (q.f + D.objGrad + q.penalty * q.violAt (dense m x) + 1 / 2 * (dense n D.primal ⬝ᵥ dense n D.hess))
        (t + q.penalty * q.violAt (dense m ct)) ∧
      r.ratio = reductionRatio ratioEps (r.merit.current - r.merit.actual) (r.merit.current - r.merit.expected) ∧
      (r.objective = if lsq then some (shown q.f (q.f + D.objGrad + 1 / 2 * (dense n D.primal ⬝ᵥ dense n D.hess)) t) else none) ∧
      (r.violation = if lsq then some (shown (q.violAt q.c) (q.violAt (dense m x)) (q.violAt (dense m ct))) else none) ∧ r.nonlin = nl := by
    intro nl
    refine ⟨_, rfl, ?_⟩
    subst hS
    cases lsq
    · exact ⟨rfl, rfl, rfl, rfl, rfl⟩
    · refine ⟨?_, rfl, rfl, rfl, rfl⟩
      show shown _ _ _ = shown _ _ _
      rw [add_right_comm]
  have hmf : MeasureFor e S := by rw [hS]; exact ⟨hs.num, hs.lb, hs.ub, hs.eps⟩
  rw [← hN]
  by_cases hcn : cutoff * cutoff < N
  · have hne : N ≠ 0 := ne_of_gt (lt_of_le_of_lt (mul_nonneg hcut hcut) hcn)
    have hsc := scale_dense hz (2 / N)
    have hld := dot_dense hsc.1 hy
    have hnl : S.reportNonlin y = some ((q.f + D.objGrad - t) * (2 / N), (z.scale (2 / N)).infNorm,
        (q.f + D.objGrad - t) * (2 / N) + dense m (z.scale (2 / N)) ⬝ᵥ dense m y) := by
      rw [hS]
      simp only [Measure.reportNonlin, Measure.lagNonlin, cdiv, if_neg hne, Option.map_some, Option.bind_some, hld]
    obtain ⟨r, hr, r1, r2, r3, r4, r5⟩ := hlines (some ((q.f + D.objGrad - t) * (2 / N), (z.scale (2 / N)).infNorm,
        (q.f + D.objGrad - t) * (2 / N) + dense m (z.scale (2 / N)) ⬝ᵥ dense m y))
    refine ⟨x, z, S, r, x0, hx, hz, x1, z1, ?_, hmf, by rw [hS], by rw [hS], by rw [hS], by rw [hS], by rw [hS], r1, r2, r3, r4, by rw [r5, if_pos hcn]⟩
    rw [hrep, hr]
    simp only [Measure.reportTrial, hSN, if_pos hcn, hnl, Option.map_some]
  · obtain ⟨r, hr, r1, r2, r3, r4, r5⟩ := hlines none
    refine ⟨x, z, S, r, x0, hx, hz, x1, z1, ?_, hmf, by rw [hS], by rw [hS], by rw [hS], by rw [hS], by rw [hS], r1, r2, r3, r4, by rw [r5, if_neg hcn]⟩
    rw [hrep, hr]
    simp only [Measure.reportTrial, hSN, if_neg hcn, Option.map_some]

/-- adding in either order gives the same values, also with a drop tolerance -/
theorem addScaled_swap {a b r0 r1 r r' : Vec K} {eps : K} (heps : 0 ≤ eps) (ha : VOk m a) (hb : VOk m b)
    (h : a.addScaled b 1 1 eps r0 = some r) (h' : b.addScaled a 1 1 eps r1 = some r') : dense m r = dense m r' := by
  obtain ⟨u, u1, _, _, u4⟩ := C03_add_scaled a b r0 1 1 eps ha.1 hb.1 (by rw [ha.2, hb.2]) heps
  obtain ⟨w, w1, _, _, w4⟩ := C03_add_scaled b a r1 1 1 eps hb.1 ha.1 (by rw [ha.2, hb.2]) heps
  rw [h] at u1
  rw [h'] at w1
  cases u1
  cases w1
  funext i
  unfold dense
  rw [u4 i, w4 i, add_comm]

/-! ### C124 -/

/-- C124, merit line: whatever was stored before, the report about a trial point is made, and shows the penalty function at the iterate,
its quadratic model at the trial step up to the tolerances of the direction and the dropped entries, and the penalty function at the trial
point, together with the reductions in percent. -/
theorem C124_merit_partial {q : LocalModel n m K} {e : MeritEnv K} (he : EnvNear q e) (hpen : 0 < q.penalty) {s : Measure K}
    (hs : MeasureFor e s) {D : Dir K} {d : Fin n → K} {δ : DirErr K} (h : DirNear q D d δ) (t : K) {ct : Vec K} (hct : VOk m ct) {y : Vec K}
    (hy : VOk m y) {cutoff : K} (hcut : 0 ≤ cutoff) (ratioEps : K) (lsq : Bool) :
    ∃ s' r, s.report e.objVal e.cons t ct D q.penalty cutoff ratioEps lsq y = some (s', r) ∧
      r.merit.current = q.quad 0 ∧
      |r.merit.expected - q.quad d| ≤
        δ.g + q.penalty * (m * (δ.c + e.zeroEps)) + 1 / 2 * ∑ i, (|d i| * δ.h + δ.p * |(q.H *ᵥ d) i| + δ.p * δ.h) ∧
      r.merit.actual = q.meritAt t (dense m ct) ∧
      r.merit.predictedPercent = percentReduction r.merit.current r.merit.expected ∧
      r.merit.actualPercent = percentReduction r.merit.current r.merit.actual := by
  obtain ⟨x, z, s', r, x0, hx, hz, x1, z1, hrep, hm, hp, -, -, -, -, r1, -⟩ :=
    report_spec he hpen hs h (t := t) hct hy cutoff ratioEps lsq hcut
  obtain ⟨v, v1, v2⟩ := C63_quadratic_near he hpen.le h
  have hd := he.data
  have hf : e.objVal = q.f := hd.f
  have hpe : e.penalty = q.penalty := hd.pen
  have hexp : r.merit.expected = v := by
    obtain ⟨c, c1, c2, c3⟩ := addScaled_near (r0 := e.work) (1 : K) 1 he.eps h.okC hd.okC
    have htot : totalViolation e.numCons c e.consLb e.consUb = some (q.violAt (dense m c)) := total_dense hd c2
    unfold MeritEnv.quadratic MeritEnv.linear at v1
    have c1' : D.consJac.addScaled e.cons 1 1 e.zeroEps e.work = some c := c1
    rw [c1', Option.bind_some, htot, Option.bind_some, Option.bind_some, dot_dense h.okP h.okH, Option.bind_some] at v1
    rw [r1, ← Option.some.inj v1, hf, hpe, ← addScaled_swap he.eps hd.okC h.okC x0 c1']
    rfl
  refine ⟨s', r, hrep, ?_, by rw [hexp]; exact v2, by rw [r1]; rfl, by rw [r1]; rfl, by rw [r1]; rfl⟩
  rw [r1]
  simp [shown, LocalModel.quad, LocalModel.lin, LocalModel.viol, LocalModel.violAt]

/-- C124, reduction ratio: the ratio shown is the one by which the direct step rule decides about the trial point, if its predicted value is
that of the quadratic model, for the penalty in use at the beginning of the iteration. Any drop tolerance. -/
theorem C124_ratio_partial {q : LocalModel n m K} {e : MeritEnv K} (he : EnvNear q e) (hpen : 0 < q.penalty) {s : Measure K}
    (hs : MeasureFor e s) {D : Dir K} {d : Fin n → K} {δ : DirErr K} (h : DirNear q D d δ) (t : K) {ct : Vec K} (hct : VOk m ct) {y : Vec K}
    (hy : VOk m y) {cutoff : K} (hcut : 0 ≤ cutoff) (ratioEps : K) (lsq : Bool) {s' : Measure K} {r : TrialReport K}
    (hrep : s.report e.objVal e.cons t ct D q.penalty cutoff ratioEps lsq y = some (s', r)) {cur act model : K}
    (hc : e.func = some cur) (ha : ({ e with objVal := t, cons := ct } : MeritEnv K).func = some act) (hm : e.quadratic D = some model)
    (accepted : K) : r.ratio = (directApply ratioEps accepted cur act model).map Prod.snd := by
  obtain ⟨x, z, s2, r2, x0, hx, hz, x1, z1, hrep2, -, -, -, -, -, -, r1, hr, -⟩ :=
    report_spec he hpen hs h (t := t) hct hy cutoff ratioEps lsq hcut
  rw [hrep] at hrep2
  cases hrep2
  have hd := he.data
  have hf : e.objVal = q.f := hd.f
  have hpe : e.penalty = q.penalty := hd.pen
  have ht : ∀ {c : Vec K}, VOk m c → totalViolation e.numCons c e.consLb e.consUb = some (q.violAt (dense m c)) := fun hc => total_dense hd hc
  have hcv : dense m e.cons = q.c := hd.c
  unfold MeritEnv.func at hc ha
  rw [ht hd.okC, Option.bind_some, hcv, hf, hpe] at hc
  have ht2 := ht hct
  simp only [ht2, Option.bind_some, hpe] at ha
  obtain ⟨c, c1, c2, c3⟩ := addScaled_near (r0 := e.work) (1 : K) 1 he.eps h.okC hd.okC
  have c1' : D.consJac.addScaled e.cons 1 1 e.zeroEps e.work = some c := c1
  unfold MeritEnv.quadratic MeritEnv.linear at hm
  rw [c1', Option.bind_some, ht c2, Option.bind_some, Option.bind_some, dot_dense h.okP h.okH, Option.bind_some, hf, hpe,
    ← addScaled_swap he.eps hd.okC h.okC x0 c1'] at hm
  rw [hr, r1, ← Option.some.inj hc, ← Option.some.inj ha, ← Option.some.inj hm]
  unfold directApply
  rw [Option.map_map]
  simp only [Function.comp_def, Option.map_id']
  rfl

/-- C124, nonlinearity line: it is shown exactly for steps longer than the cut-off, never contains a number resulting from a division by
zero, and shows the deviations of objective, worst constraint and Lagrangean from their linear models, relative to half the squared norm
of the step. Drop tolerance zero. -/
theorem C124_nonlinearity_partial {q : LocalModel n m K} {e : MeritEnv K} (he : EnvFor q e) (hpen : 0 < q.penalty) {s : Measure K}
    (hs : MeasureFor e s) {D : Dir K} {d : Fin n → K} (h : DirFor q D d) (t : K) {ct : Vec K} (hct : VOk m ct) {y : Vec K}
    (hy : VOk m y) {cutoff : K} (hcut : 0 ≤ cutoff) (ratioEps : K) (lsq : Bool) :
    ∃ s' r, s.report e.objVal e.cons t ct D q.penalty cutoff ratioEps lsq y = some (s', r) ∧
      (¬ cutoff * cutoff < d ⬝ᵥ d → r.nonlin = none) ∧
      (cutoff * cutoff < d ⬝ᵥ d → ∃ worst, r.nonlin = some (deviation (q.f + q.g ⬝ᵥ d) t d, worst,
          deviation (q.f + q.g ⬝ᵥ d) t d + ∑ i, deviation (q.c i + (q.J *ᵥ d) i) (dense m ct i) d * dense m y i) ∧
        (∀ i, |deviation (q.c i + (q.J *ᵥ d) i) (dense m ct i) d| ≤ worst) ∧
        (worst = 0 ∨ ∃ i, worst = |deviation (q.c i + (q.J *ᵥ d) i) (dense m ct i) d|)) := by
  have hen : EnvNear q e := ⟨by
    have : ({ e with zeroEps := 0 } : MeritEnv K) = e := by
      conv_rhs => rw [show e = ⟨e.numCons, e.objVal, e.cons, e.consLb, e.consUb, e.work, e.zeroEps, e.penalty⟩ from rfl, he.eps]
    rw [this]; exact he, by rw [he.eps]⟩
  have hdn : DirNear q D d ⟨0, 0, 0, 0⟩ := ⟨h.okP, h.okC, h.okH, fun i => by simp [h.primal], by simp [h.grad], fun i => by simp [h.jac],
    fun i => by simp [h.hess]⟩
  obtain ⟨x, z, s', r, x0, hx, hz, x1, z1, hrep, -, -, -, -, -, -, -, -, -, -, hn⟩ :=
    report_spec hen hpen hs hdn (t := t) hct hy cutoff ratioEps lsq hcut
  rw [he.eps] at x1 z1
  have hzv : ∀ i, dense m z i = q.c i + (q.J *ᵥ d) i - dense m ct i := fun i => by
    have a := sub_eq_zero.1 (abs_nonpos_iff.1 (x1 i))
    have b := sub_eq_zero.1 (abs_nonpos_iff.1 (z1 i))
    rw [b, a, h.jac]
  rw [h.primal, h.grad] at hn
  have hsc := scale_dense hz (2 / (d ⬝ᵥ d))
  have hdev : ∀ i, dense m (z.scale (2 / (d ⬝ᵥ d))) i = deviation (q.c i + (q.J *ᵥ d) i) (dense m ct i) d := fun i => by
    rw [hsc.2, Pi.smul_apply, smul_eq_mul, hzv]
    unfold deviation
    rw [div_mul_eq_mul_div]
  refine ⟨s', r, hrep, fun hc => by rw [hn, if_neg hc], fun hc => ⟨(z.scale (2 / (d ⬝ᵥ d))).infNorm, ?_, fun i => ?_, ?_⟩⟩
  · rw [hn, if_pos hc]
    have e1 : (q.f + q.g ⬝ᵥ d - t) * (2 / (d ⬝ᵥ d)) = deviation (q.f + q.g ⬝ᵥ d) t d := by
      unfold deviation
      rw [mul_div_assoc', mul_comm]
    rw [e1]
    have e2 : dense m (z.scale (2 / (d ⬝ᵥ d))) ⬝ᵥ dense m y =
        ∑ i, deviation (q.c i + (q.J *ᵥ d) i) (dense m ct i) d * dense m y i := Finset.sum_congr rfl fun i _ => by rw [hdev i]
    rw [e2]
  · rw [← hdev i]
    exact (C03_inf_norm _ hsc.1.1).1 i
  · rcases (C03_inf_norm _ hsc.1.1).2 with h0 | ⟨i, hi, h1⟩
    · exact Or.inl h0
    · rw [hsc.1.2] at hi
      exact Or.inr ⟨⟨i, hi⟩, by rw [h1, ← hdev ⟨i, hi⟩]; rfl⟩

omit [IsStrictOrderedRing K] [LinearOrder K] in
theorem deviation_quadratic (A : Matrix (Fin n) (Fin n) K) (l : K) (d : Fin n → K) (h2 : (2 : K) ≠ 0) :
    deviation l (l + 1 / 2 * (d ⬝ᵥ A *ᵥ d)) d = -(d ⬝ᵥ A *ᵥ d) / (d ⬝ᵥ d) := by
  unfold deviation
  congr 1
  field_simp
  ring

/-- C124, meaning of the nonlinearities: if the objective deviates from its linear model by at most `L / 2 ‖d‖²`, the objective
nonlinearity shown is at most `L`, likewise the worst one of the constraints; if objective and constraints are quadratic with Hessians `A`
and `B i`, the Lagrangean nonlinearity shown is minus the curvature of the Lagrangean along the step. Drop tolerance zero. -/
theorem C124_curvature_partial {q : LocalModel n m K} {e : MeritEnv K} (he : EnvFor q e) (hpen : 0 < q.penalty) {s : Measure K}
    (hs : MeasureFor e s) {D : Dir K} {d : Fin n → K} (h : DirFor q D d) (t : K) {ct : Vec K} (hct : VOk m ct) {y : Vec K}
    (hy : VOk m y) {cutoff : K} (hcut : 0 ≤ cutoff) (ratioEps : K) (lsq : Bool) {s' : Measure K} {r : TrialReport K}
    (hrep : s.report e.objVal e.cons t ct D q.penalty cutoff ratioEps lsq y = some (s', r)) {o w l : K} (hn : r.nonlin = some (o, w, l)) :
    (∀ L, |t - (q.f + q.g ⬝ᵥ d)| ≤ L / 2 * (d ⬝ᵥ d) → |o| ≤ L) ∧
    (∀ L, 0 ≤ L → (∀ i, |dense m ct i - (q.c i + (q.J *ᵥ d) i)| ≤ L / 2 * (d ⬝ᵥ d)) → w ≤ L) ∧
    (∀ (A : Matrix (Fin n) (Fin n) K) (B : Fin m → Matrix (Fin n) (Fin n) K), t = q.f + q.g ⬝ᵥ d + 1 / 2 * (d ⬝ᵥ A *ᵥ d) →
      (∀ i, dense m ct i = q.c i + (q.J *ᵥ d) i + 1 / 2 * (d ⬝ᵥ B i *ᵥ d)) →
      l = -(d ⬝ᵥ A *ᵥ d + ∑ i, dense m y i * (d ⬝ᵥ B i *ᵥ d)) / (d ⬝ᵥ d)) := by
  obtain ⟨s2, r2, hrep2, hno, hyes⟩ := C124_nonlinearity_partial he hpen hs h t hct hy hcut ratioEps lsq
  rw [hrep] at hrep2
  cases hrep2
  have hc : cutoff * cutoff < d ⬝ᵥ d := by
    by_contra hc
    rw [hno hc] at hn
    cases hn
  have hpos : 0 < d ⬝ᵥ d := lt_of_le_of_lt (mul_nonneg hcut hcut) hc
  obtain ⟨w', e1, e2, e3⟩ := hyes hc
  rw [hn] at e1
  simp only [Option.some.injEq, Prod.mk.injEq] at e1
  obtain ⟨rfl, rfl, rfl⟩ := e1
  have key : ∀ {a b L : K}, |b - a| ≤ L / 2 * (d ⬝ᵥ d) → |deviation a b d| ≤ L := fun {a b L} hb => by
    unfold deviation
    rw [abs_div, abs_of_pos hpos, div_le_iff₀ hpos, abs_mul, abs_of_pos (two_pos : (0 : K) < 2), abs_sub_comm]
    linarith
  refine ⟨fun L hL => key hL, fun L h0 hL => ?_, fun A B hA hB => ?_⟩
  · rcases e3 with h1 | ⟨i, h1⟩
    · rw [h1]; exact h0
    · rw [h1]; exact key (hL i)
  · have hsum : ∑ i, deviation (q.c i + (q.J *ᵥ d) i) (dense m ct i) d * dense m y i =
        ∑ i, -(dense m y i * (d ⬝ᵥ B i *ᵥ d)) / (d ⬝ᵥ d) := Finset.sum_congr rfl fun i _ => by
      rw [hB i, deviation_quadratic (B i) _ d two_ne_zero]
      ring
    rw [hsum, hA, deviation_quadratic A _ d two_ne_zero, ← Finset.sum_div, Finset.sum_neg_distrib]
    ring

/-- C124, percentages: for a current value other than zero, the percentage is the change relative to the magnitude of the current value; it
is positive exactly for a decrease and negative exactly for an increase. -/
theorem C124_percent_partial {current : K} (h : current ≠ 0) (value : K) :
    percentReduction current value = 100 * (current - value) / |current| ∧ (0 < percentReduction current value ↔ value < current) ∧
      (percentReduction current value < 0 ↔ current < value) := by
  have e1 : percentReduction current value = 100 * (current - value) / |current| := by
    unfold percentReduction
    rw [if_neg h]
    by_cases hc : current < 0
    · rw [if_pos hc, abs_of_neg hc, div_neg]
    · rw [if_neg hc, abs_of_nonneg (not_lt.1 hc)]
  have hp : 0 < |current| := abs_pos.2 h
  rw [e1]
  refine ⟨rfl, ?_, ?_⟩
  · rw [div_pos_iff_of_pos_right hp]
    constructor <;> intro h <;> linarith
  · rw [div_neg_iff]
    constructor
    · rintro (⟨_, h2⟩ | ⟨h1, _⟩)
      · exact absurd hp (not_lt.2 h2.le)
      · linarith
    · intro h
      exact Or.inr ⟨by linarith, hp⟩

/-- C124, corrected points: after the report about a trial point, the report about the corrected point shows the penalty function at the
iterate, at the trial point and at the corrected point, all for the same penalty. Any drop tolerance. -/
theorem C124_soc_partial {q : LocalModel n m K} {e : MeritEnv K} (he : EnvNear q e) (hpen : 0 < q.penalty) {s : Measure K}
    (hs : MeasureFor e s) {D : Dir K} {d : Fin n → K} {δ : DirErr K} (h : DirNear q D d δ) (t : K) {ct : Vec K} (hct : VOk m ct) {y : Vec K}
    (hy : VOk m y) {cutoff : K} (hcut : 0 ≤ cutoff) (ratioEps : K) (lsq : Bool) {s' : Measure K} {r : TrialReport K}
    (hrep : s.report e.objVal e.cons t ct D q.penalty cutoff ratioEps lsq y = some (s', r)) (u : K) {cu : Vec K} (hcu : VOk m cu) :
    s'.reportSoc u cu = some (shown q.f t u, shown (q.violAt q.c) (q.violAt (dense m ct)) (q.violAt (dense m cu)),
      shown (q.quad 0) (q.meritAt t (dense m ct)) (q.meritAt u (dense m cu))) := by
  obtain ⟨x, z, s2, r2, x0, hx, hz, x1, z1, hrep2, hm, hp, h1, h2, h3, h4, -⟩ :=
    report_spec he hpen hs h (t := t) hct hy cutoff ratioEps lsq hcut
  rw [hrep] at hrep2
  cases hrep2
  have ht : totalViolation e.numCons cu e.consLb e.consUb = some (q.violAt (dense m cu)) := total_dense he.data hcu
  have hq : q.quad 0 = q.f + q.penalty * q.violAt q.c := by
    simp [LocalModel.quad, LocalModel.lin, LocalModel.viol, LocalModel.violAt]
  unfold Measure.reportSoc
  rw [hm.num, hm.lb, hm.ub, ht, Option.map_some, hp, h1, h2, h3, h4, hq]
  rfl

/-! ### samples and violations

One variable, objective `3 - x + x²` with values other than those of the local model at the trial point, constraint `1 + 2 x ∈ [0, 2]`,
trial step `1/2`. -/

/-- sample measure as created -/
def exMeasure : Measure ℚ := Measure.create 1 ⟨1, 0, []⟩ ⟨1, 1, [(0, 2)]⟩ 0
/-- sample direction: the step `1/2` -/
def exHalf : Dir ℚ := ⟨⟨1, 1, [(0, 1 / 2)]⟩, -1 / 2, ⟨1, 1, [(0, 1)]⟩, ⟨1, 1, [(0, 1)]⟩⟩
/-- sample tolerance of the ratio -/
def exRatioEps : ℚ := 1 / 2 ^ 49

theorem exMeasureFor : MeasureFor exMeritEnv exMeasure := ⟨rfl, rfl, rfl, rfl⟩

theorem exEnvNear : EnvNear exModel exMeritEnv := ⟨exEnvFor, le_rfl⟩

theorem exHalfFor : DirFor exModel exHalf ![1 / 2] :=
  ⟨exVok _, exVok _, exVok _, by decide +kernel, by decide +kernel, by decide +kernel, by decide +kernel⟩

theorem exHalfNear : DirNear exModel exHalf ![1 / 2] ⟨0, 0, 0, 0⟩ :=
  ⟨exHalfFor.okP, exHalfFor.okC, exHalfFor.okH, fun i => by simp [exHalfFor.primal], by simp [exHalfFor.grad],
    fun i => by simp [exHalfFor.jac], fun i => by simp [exHalfFor.hess]⟩

/-- sample report: objective value 11/4 and constraint value 9/4 at the trial point, multiplier 4 -/
def exReport (lsq : Bool) : Option (Measure ℚ × TrialReport ℚ) :=
  exMeasure.report 3 ⟨1, 1, [(0, 1)]⟩ (11 / 4) ⟨1, 1, [(0, 9 / 4)]⟩ exHalf 10 (1 / 1000000) exRatioEps lsq ⟨1, 1, [(0, 4)]⟩

example : ∃ s' r, exReport false = some (s', r) ∧ r.merit.current = 3 ∧ r.merit.expected = 11 / 4 ∧ r.merit.actual = 21 / 4 := by
  obtain ⟨s', r, h1, h2, h3, h4, -⟩ := C124_merit_partial exEnvNear (by decide +kernel) exMeasureFor exHalfNear (11 / 4) (exVok (9 / 4))
    (exVok 4) (cutoff := 1 / 1000000) (by decide +kernel) exRatioEps false
  refine ⟨s', r, h1, ?_, ?_, ?_⟩
  · rw [h2]; decide +kernel
  · have e0 : exModel.quad ![1 / 2] = 11 / 4 := by decide +kernel
    have hz : exMeritEnv.zeroEps = 0 := rfl
    rw [e0, hz] at h3
    simp at h3
    linarith [abs_nonpos_iff.1 (le_of_eq (abs_eq_zero.2 h3))]
  · rw [h4]; decide +kernel

example : ((exReport false).map fun x => x.2.nonlin) = some (some (-2, 2, -10)) := by decide +kernel

example : ((exReport false).bind fun x => x.2.ratio) =
    (directApply exRatioEps (1 / 10) 3 (21 / 4) (11 / 4)).map Prod.snd := by decide +kernel

example : percentReduction (-4 : ℚ) (-5) = 25 := by decide +kernel

example : ((exReport true).bind fun x => (x.1.reportSoc (5 / 2) ⟨1, 1, [(0, 2)]⟩).map fun y => (y.2.2.current, y.2.2.expected, y.2.2.actual)) =
    some (3, 21 / 4, 5 / 2) := by decide +kernel

/-- The code violates C124 for the linear model (setting `use_quadratic_model` off): the expected merit value shown contains half the Hessian
product, but the step rule is given the value of the linear model. Merit value 3, linear model 5/2, quadratic model 11/4, merit value at the
trial point 21/8: the ratio in the debug log is about 3/2, whereas the ratio by which the step is judged is about 3/4. -/
theorem C124_linear_violated :
    DirFor exModel exHalf ![1 / 2] ∧ exMeritEnv.linear exHalf = some (5 / 2) ∧ exMeritEnv.func = some 3 ∧
      ((exMeasure.report 3 ⟨1, 1, [(0, 1)]⟩ (21 / 8) ⟨1, 1, [(0, 1)]⟩ exHalf 10 (1 / 1000000) exRatioEps false ⟨1, 0, []⟩).bind fun x =>
        x.2.ratio.map fun r => decide (149 / 100 < r)) = some true ∧
      ((directApply exRatioEps (1 / 10) 3 (21 / 8) (5 / 2)).map fun x => decide (x.2 < 76 / 100)) = some true :=
  ⟨exHalfFor, by decide +kernel, by decide +kernel, by decide +kernel, by decide +kernel⟩

/-- The code violates C124 for a current value zero: the reduction is shown as 0 % whatever the other value. At a feasible iterate of a least
squares problem the trial point violates the constraint by 1/4, and by 1000 in a second case; the line about the violation shows an actual
reduction of 0 % both times. -/
theorem C124_percent_violated :
    ((exReport true).bind fun x => x.2.violation.map fun v => (v.current, v.actual, v.actualPercent)) = some (0, 1 / 4, 0) ∧
    ((exMeasure.report 3 ⟨1, 1, [(0, 1)]⟩ (11 / 4) ⟨1, 1, [(0, 1002)]⟩ exHalf 10 (1 / 1000000) exRatioEps true ⟨1, 1, [(0, 4)]⟩).bind fun x =>
      x.2.violation.map fun v => (v.current, v.actual, v.actualPercent)) = some (0, 1000, 0) := by
  constructor <;> decide +kernel

/-- The code violates C124 for trial points rejected by the user's function: these are not evaluated, but the report is made nevertheless,
from the values that happen to be stored in the trial iterate, i.e. those of a point tried before. Here these are the objective value -50
and a feasible constraint value: the log shows merit value -50 at the trial point and a reduction by more than 1700 %. -/
theorem C124_rejected_violated (value : ℚ × Vec ℚ) :
    ((exMeasure.evalReport 3 ⟨1, 1, [(0, 1)]⟩ (-50, ⟨1, 1, [(0, 1)]⟩) true value exHalf 10 (1 / 1000000) exRatioEps false ⟨1, 0, []⟩).map
      fun x => (x.2.merit.actual, decide (1700 < x.2.merit.actualPercent))) = some (-50, true) := by
  show ((exMeasure.report 3 ⟨1, 1, [(0, 1)]⟩ (-50) ⟨1, 1, [(0, 1)]⟩ exHalf 10 (1 / 1000000) exRatioEps false ⟨1, 0, []⟩).map
      fun x => (x.2.merit.actual, decide (1700 < x.2.merit.actualPercent))) = some (-50, true)
  decide +kernel

end Sleqp

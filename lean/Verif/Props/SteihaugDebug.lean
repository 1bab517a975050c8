import Verif.Model.SteihaugDebug
import Verif.Props.DirCheck
import Verif.Props.Steihaug

/-!
C131: the checks made by the conjugate-gradient solver in debug builds never fail.
-/

namespace Sleqp
variable {K : Type*} [Field K] [LinearOrder K] [IsStrictOrderedRing K]
variable {n : Nat}
open Matrix

/-! ### lemmas -/

theorem passed_of {α : Type*} {c : Option Bool} (h : c = some true) (x : Option α) : passed c x = x := by
  rw [h]; rfl

theorem eq_of_dense {v w : Vec K} {eps : K} (he : 0 ≤ eps) (hv : VOk n v) (hw : VOk n w) (h : dense n v = dense n w) :
    v.eq w eps = some true := by
  obtain ⟨b, b1, b2⟩ := vec_eq_close he hv hw
  rw [b1, b2.2 fun i => by rw [h]; exact close_self he _]

theorem checkProjection_ok {q : TrProblem n K} {e : TrEnv K} {grad : Vec K} (he : TrFor q e grad) {eps : K} (heps : 0 ≤ eps) {v : Vec K}
    (hv : VOk n v) (hP : q.P *ᵥ dense n v = dense n v) : checkProjection e eps v = some true := by
  obtain ⟨p, p1, p2, p3⟩ := he.proj v e.work hv
  unfold checkProjection
  rw [p1, Option.bind_some]
  exact eq_of_dense heps hv p2 (by rw [p3, hP])

theorem norm_le {q : TrProblem n K} {e : TrEnv K} {grad : Vec K} (he : TrFor q e grad) {v : Vec K} (hv : VOk n v) {radius : K} (hr : 0 < radius)
    (h : dense n v ⬝ᵥ dense n v ≤ radius * radius) : e.sqrt v.normSq ≤ radius := by
  rw [normSq_dense hv]
  obtain ⟨s1, s2⟩ := he.sqrt _ (dot_self_nonneg (dense n v))
  by_contra hc
  rw [not_le] at hc
  have := mul_lt_mul'' hc hc hr.le hr.le
  rw [s2] at this
  exact absurd h (not_le.2 this)

theorem norm_eq {q : TrProblem n K} {e : TrEnv K} {grad : Vec K} (he : TrFor q e grad) {v : Vec K} (hv : VOk n v) {radius : K} (hr : 0 < radius)
    (h : dense n v ⬝ᵥ dense n v = radius * radius) : e.sqrt v.normSq = radius := by
  rw [normSq_dense hv]
  obtain ⟨s1, s2⟩ := he.sqrt _ (dot_self_nonneg (dense n v))
  rcases mul_self_eq_mul_self_iff.1 (s2.trans h) with h1 | h1
  · exact h1
  · linarith

theorem checkTrustRadius_ok {q : TrProblem n K} {e : TrEnv K} {grad : Vec K} (he : TrFor q e grad) {eps : K} (heps : 0 ≤ eps) {v : Vec K}
    (hv : VOk n v) {radius : K} (hr : 0 < radius) (h : dense n v ⬝ᵥ dense n v ≤ radius * radius) :
    checkTrustRadius e eps radius v = some true := by
  unfold checkTrustRadius isLeq relDiff
  rw [decide_eq_true]
  refine le_trans (div_nonpos_of_nonpos_of_nonneg ?_ ?_) heps
  · exact sub_nonpos.2 (norm_le he hv hr h)
  · exact le_trans zero_le_one (le_max_right _ _)

theorem checkResiduals_ok {q : TrProblem n K} {e : TrEnv K} {grad : Vec K} (he : TrFor q e grad) {eps : K} (heps : 0 ≤ eps) {radius : K}
    {s : CgState K} (hs : CgInv q e.relTol radius s) : checkResiduals e eps grad s = some true := by
  obtain ⟨b, b1, b2, b3⟩ := he.hp s.z e.work hs.okz
  obtain ⟨r, r1, r2, r3⟩ := addScaled_dense (r0 := e.work) (1 : K) 1 b2 he.gradOk
  unfold checkResiduals
  rw [b1, Option.bind_some, he.zeroEps, r1, Option.bind_some]
  exact eq_of_dense heps r2 hs.okr (by rw [r3, b3, he.gradQ, hs.r, one_smul, one_smul, add_comm])

/-- the checks of a pass are passed -/
theorem cgPassDebug_eq {q : TrProblem n K} (hq : q.Valid) {e : TrEnv K} {grad newton : Vec K} (he : TrFor q e grad) {eps : K} (heps : 0 ≤ eps)
    {radius : K} (hr : 0 < radius) (htol : 0 < e.relTol) {s : CgState K} (hs : CgInv q e.relTol radius s) (hray : RayOk q s.ray) (it : Nat) :
    cgPassDebug e eps grad newton radius it s = cgPass e grad newton radius it s := by
  unfold cgPassDebug cgPass
  by_cases hm : e.maxIter ≠ -1 ∧ e.maxIter ≤ it
  · rw [if_pos hm, if_pos hm]
  rw [if_neg hm, if_neg hm]
  by_cases ht : e.timeUp it = true
  · rw [if_pos ht, if_pos ht]
  rw [if_neg ht, if_neg ht, passed_of (checkProjection_ok he heps hs.okd hs.pd)]
  have hnn := rg_nonneg hq hs
  by_cases hsmall : |s.rg| < e.relTol * e.relTol
  · rw [if_pos hsmall, if_pos hsmall]
  rw [if_neg hsmall, if_neg hsmall, passed_of (checkResiduals_ok he heps hs)]
  have hrg : 0 < s.rg := by
    rw [abs_of_nonneg hnn, not_lt] at hsmall
    exact lt_of_lt_of_le (mul_pos htol htol) hsmall
  have hd : 0 < dense n s.d ⬝ᵥ dense n s.d := by
    refine lt_of_le_of_ne (dot_self_nonneg _) fun h => ?_
    have := hs.rd
    rw [dot_self_zero h.symm, dotProduct_zero] at this
    linarith
  obtain ⟨Bd, b1, b2, b3⟩ := he.hp s.d e.work hs.okd
  obtain ⟨ray, y1, y2, -⟩ := ray_spec hray hs.okd b2 b3 hs.pd
  rw [b1, Option.bind_some, Option.bind_some, y1, Option.bind_some, Option.bind_some, dot_dense hs.okd b2, Option.bind_some, Option.bind_some, b3]
  obtain ⟨dBd, hdBd⟩ : ∃ x, x = dense n s.d ⬝ᵥ q.B *ᵥ dense n s.d := ⟨_, rfl⟩
  rw [← hdBd]
  by_cases hneg : dBd ≤ 0
  · rw [if_pos hneg, if_pos hneg]
    obtain ⟨p, p1, p2, p3, p4, p5⟩ := negCurv_spec (newton := newton) hq he hs b2 b3 hdBd hneg hd
    rw [p1, Option.bind_some, Option.bind_some, passed_of]
    rw [norm_eq he p2 hr p3, (isEq_iff_close _ _ _).2 (close_self heps _)]
  · rw [if_neg hneg, if_neg hneg]
    have hpos := not_le.1 hneg
    unfold cgPositiveDebug cgPositive
    rw [cdiv, if_neg hpos.ne', Option.bind_some, Option.bind_some]
    obtain ⟨alpha, ha⟩ : ∃ x, x = s.rg / dBd := ⟨_, rfl⟩
    have ha' : alpha * dBd = s.rg := by rw [ha, div_mul_cancel₀ _ hpos.ne']
    rw [← ha]
    obtain ⟨z, z1, z2, z3⟩ := addScaled_dense (r0 := e.work) (1 : K) alpha hs.okz hs.okd
    rw [one_smul] at z3
    rw [he.zeroEps, z1, Option.bind_some, Option.bind_some, normSq_dense z2]
    by_cases hout : radius * radius ≤ dense n z ⬝ᵥ dense n z
    · rw [if_pos hout, if_pos hout]
      obtain ⟨p, p1, p2, p3, p4, p5⟩ := bdry_spec (newton := newton) hq he hs hdBd hpos hrg ha' hd (by rw [← z3]; exact hout)
      rw [he.zeroEps] at p1
      rw [p1, Option.bind_some, Option.bind_some, passed_of (checkProjection_ok he heps p2 p4), passed_of (checkTrustRadius_ok he heps p2 hr p3.le)]
    · rw [if_neg hout, if_neg hout]
      obtain ⟨s', s1, s2, s3, s4, s5⟩ := update_spec (ray := ray) hq he hs b2 b3 hdBd hpos hrg ha' z2 z3 (not_le.1 hout).le
      rw [s1, Option.bind_some, Option.bind_some, passed_of (checkProjection_ok he heps s2.okg (by rw [s2.g, proj_proj hq])),
        passed_of (checkProjection_ok he heps hs.okd hs.pd), passed_of (checkProjection_ok he heps s2.okd s2.pd)]

theorem cgLoopDebug_eq {q : TrProblem n K} (hq : q.Valid) {e : TrEnv K} {grad newton : Vec K} (he : TrFor q e grad) {eps : K} (heps : 0 ≤ eps)
    (hn : VOk n newton) (hn0 : dense n newton = 0) {radius : K} (hr : 0 < radius) (htol : 0 < e.relTol) (fuel : Nat) :
    ∀ (it : Nat) {s : CgState K}, CgInv q e.relTol radius s → RayOk q s.ray →
      cgLoopDebug e eps grad newton radius fuel it s = cgLoop e grad newton radius fuel it s := by
  induction fuel with
  | zero => intro it s _ _; rfl
  | succ fuel ih =>
    intro it s hs hray
    rw [cgLoopDebug, cgLoop, cgPassDebug_eq hq he heps hr htol hs hray it]
    rcases cgPass_spec hq he hn hn0 hr htol hs hray it with ⟨res', h1, h2⟩ | ⟨s', alpha, h1, h2, h3, -, -⟩
    · rw [h1, Option.bind_some, Option.bind_some, cgNextDebug, cgNext, passed_of (checkTrustRadius_ok he heps h2.ok hr h2.inside)]
    · rw [h1, Option.bind_some, Option.bind_some, cgNextDebug, cgNext]
      exact ih (it + 1) h2 h3

/-! ### property theorem -/

/-- C131: the checks made while the trust-region subproblem is solved never fail, whatever the Hessian, the limits and the number of
passes: with the checks the solver returns exactly what it returns without them.
This is for `zero_eps = 0`; a positive drop tolerance is missing. -/
theorem C131_solver_partial {q : TrProblem n K} (hq : q.Valid) {e : TrEnv K} {grad newton : Vec K} (he : TrFor q e grad) {eps : K} (heps : 0 ≤ eps)
    (hn : newton.WF ∧ newton.dim = n) {radius : K} (hr : 0 < radius) (htol : 0 < e.relTol) (fuel : Nat) :
    steihaugDebug e eps fuel grad newton radius = steihaug e fuel grad newton radius := by
  unfold steihaugDebug steihaug
  obtain ⟨r, r1, r2, r3⟩ := copy_spec he.gradOk he.work
  have hrq : dense n r = q.g := by rw [← he.gradQ]; exact dense_of_ents r3
  obtain ⟨g, g1, g2, g3⟩ := he.proj r e.work r2
  obtain ⟨g', k1, k2, k3⟩ := copy_spec g2 he.work
  have hg' : dense n g' = dense n g := dense_of_ents k3
  obtain ⟨d1, d2⟩ := scale_dense k2 (-1 : K)
  rw [neg_one_smul, hg'] at d2
  have hwok : VOk n e.work.clear := ⟨⟨by simp [Vec.clear, Srt], by simp [Vec.clear], by simp [Vec.clear]⟩, he.work⟩
  have hw0 : dense n e.work.clear = 0 := by funext i; rfl
  have hray : RayOk q (⟨1, 1⟩ : Rayleigh K) := ⟨le_rfl, le_rfl, Or.inl rfl, Or.inl rfl⟩
  have hgq : dense n g = q.P *ᵥ q.g := by rw [g3, hrq]
  rw [r1, Option.bind_some, Option.bind_some, g1, Option.bind_some, Option.bind_some, k1, Option.bind_some, Option.bind_some, normSq_dense d1,
    d2, neg_dotProduct_neg, dot_dense r2 g2, Option.bind_some, Option.bind_some]
  by_cases hsm : dense n g ⬝ᵥ dense n g < e.relTol * e.relTol
  · rw [if_pos hsm, if_pos hsm]
  · rw [if_neg hsm, if_neg hsm]
    have hrg : dense n r ⬝ᵥ dense n g = dense n g ⬝ᵥ dense n g := by rw [g3, proj_dot hq]
    refine cgLoopDebug_eq hq he heps (clear_vok hn).1 (clear_vok hn).2 hr htol fuel 0
      ⟨hwok, r2, g2, d1, ?_, g3, rfl, ?_, ?_, ?_, ?_, ?_, ?_, Or.inl ⟨hw0, by rw [← hgq]; exact d2, ?_⟩⟩ hray
    · show dense n r = q.g + q.B *ᵥ dense n e.work.clear
      rw [hw0, mulVec_zero, add_zero, hrq]
    · show q.P *ᵥ dense n e.work.clear = dense n e.work.clear
      rw [hw0, mulVec_zero]
    · show q.P *ᵥ dense n (g'.scale (-1)) = dense n (g'.scale (-1))
      rw [d2, mulVec_neg, g3, proj_proj hq]
    · show dense n r ⬝ᵥ dense n (g'.scale (-1)) = -(dense n r ⬝ᵥ dense n g)
      rw [d2, dotProduct_neg]
    · show (0 : K) = dense n e.work.clear ⬝ᵥ dense n e.work.clear
      rw [hw0, dotProduct_zero]
    · show dense n e.work.clear ⬝ᵥ dense n e.work.clear ≤ _
      rw [hw0, dotProduct_zero]; exact (mul_pos hr hr).le
    · show q.val (dense n e.work.clear) ≤ 0
      rw [hw0, val_zero]
    · show e.relTol * e.relTol ≤ dense n r ⬝ᵥ dense n g
      rw [hrg]; exact not_lt.1 hsm

/-- C131: what the checks of the solver accept. The check of the projection accepts exactly the vectors close to their projection onto
the null space, the check of the norm those whose norm exceeds the radius by at most the tolerance (relative to norm and radius if one
of them is larger than 1), and the check of the residual those states where it is close to the gradient of the model.
This is for `zero_eps = 0`; a positive drop tolerance is missing. -/
theorem C131_solver_checks_partial {q : TrProblem n K} {e : TrEnv K} {grad : Vec K} (he : TrFor q e grad) {eps : K} (heps : 0 ≤ eps) {v : Vec K}
    (hv : v.WF ∧ v.dim = n) (radius : K) (s : CgState K) (hz : s.z.WF ∧ s.z.dim = n) (hr : s.r.WF ∧ s.r.dim = n) :
    (∃ b, checkProjection e eps v = some b ∧ (b = true ↔ ∀ i, Close eps (dense n v i) ((q.P *ᵥ dense n v) i))) ∧
    (∃ b, checkTrustRadius e eps radius v = some b ∧
      (b = true ↔ e.sqrt (dense n v ⬝ᵥ dense n v) - radius ≤ eps * max (max |e.sqrt (dense n v ⬝ᵥ dense n v)| |radius|) 1)) ∧
    ∃ b, checkResiduals e eps grad s = some b ∧ (b = true ↔ ∀ i, Close eps ((q.g + q.B *ᵥ dense n s.z) i) (dense n s.r i)) := by
  refine ⟨?_, ?_, ?_⟩
  · obtain ⟨p, p1, p2, p3⟩ := he.proj v e.work hv
    obtain ⟨b, b1, b2⟩ := vec_eq_close heps hv p2
    exact ⟨b, by unfold checkProjection; rw [p1, Option.bind_some, b1], by rw [b2, p3]⟩
  · refine ⟨_, rfl, ?_⟩
    unfold isLeq relDiff
    rw [decide_eq_true_iff, normSq_dense hv, div_le_iff₀ (lt_of_lt_of_le zero_lt_one (le_max_right _ _))]
  · obtain ⟨h, h1, h2, h3⟩ := he.hp s.z e.work hz
    obtain ⟨r, r1, r2, r3⟩ := addScaled_dense (r0 := e.work) (1 : K) 1 h2 he.gradOk
    obtain ⟨b, b1, b2⟩ := vec_eq_close heps r2 hr
    refine ⟨b, ?_, ?_⟩
    · unfold checkResiduals
      rw [h1, Option.bind_some, he.zeroEps, r1, Option.bind_some, b1]
    · rw [b2, r3, h3, he.gradQ, one_smul, one_smul, add_comm]

-- non-vacuity: a residual which differs from the gradient is refused
example : ∃ b, checkResiduals (exTr 3 1 (-1)) (1 / 1000) exTrGrad ⟨Vec.create 3 0, Vec.create 3 0, Vec.create 3 0, Vec.create 3 0, 0, 0, ⟨1, 1⟩⟩ = some b ∧
    b = false := by
  obtain ⟨-, -, b, b1, b2⟩ := C131_solver_checks_partial (exTr_for 1 (-1) exTrGrad_ok) (eps := 1 / 1000) (by norm_num) (create_ok 3 0) 1
    ⟨Vec.create 3 0, Vec.create 3 0, Vec.create 3 0, Vec.create 3 0, 0, 0, ⟨1, 1⟩⟩ (create_ok 3 0) (create_ok 3 0)
  refine ⟨b, b1, ?_⟩
  rw [← Bool.not_eq_true, b2]
  intro h
  have h0 : dense 3 (Vec.create 3 0 : Vec ℝ) = 0 := by funext i; rfl
  have h := h 0
  have e0 : dense 3 exTrGrad 0 = 1 := by norm_num [dense, exTrGrad, Vec.value, valAt, at?]
  unfold Close at h
  simp only [h0, mulVec_zero, add_zero, Pi.zero_apply] at h
  rw [show (exTrProblem 1 (dense 3 exTrGrad)).g 0 = 1 from e0] at h
  norm_num at h

-- non-vacuity: on the sample problem the solver with checks terminates
example (b : ℝ) : ∃ res, steihaugDebug (exTr 3 b (-1)) (1 / 1000) 4 exTrGrad (Vec.create 3 0) 2 = some res := by
  have hf := exTr_for b (-1) exTrGrad_ok
  obtain ⟨res, h⟩ := C48_terminates_partial (exTr_valid b _) hf (create_ok 3 0) (radius := 2) (by norm_num) (by norm_num [exTr])
  exact ⟨res, (C131_solver_partial (exTr_valid b _) hf (by norm_num) (create_ok 3 0) (by norm_num) (by norm_num [exTr]) 4).trans
    (h 4 (by norm_num))⟩

end Sleqp

import Verif.Props.DirectionEps
import Verif.Props.CauchyLs

/-!
C43 for any drop tolerance.
-/

namespace Sleqp
variable {K : Type*} [Field K] [LinearOrder K] [IsStrictOrderedRing K]
variable {n m : Nat}
open Matrix

/-! ### lemmas -/

/-- the local variables of the line search belong to the step `s.delta • d`, up to the error `δ` of the Jacobian product -/
structure CauchyNear (q : LocalModel n m K) (d : Fin n → K) (δ : K) (s : CauchyLs K) : Prop where
  hp : s.hp = s.delta * s.delta * (d ⬝ᵥ q.H *ᵥ d)
  od : s.od = s.delta * (q.g ⬝ᵥ d)
  okC : VOk m s.cj
  cj : ∀ i, |dense m s.cj i - s.delta * (q.J *ᵥ d) i| ≤ s.delta * δ
  pos : 0 < s.delta
  le : s.delta ≤ 1

/-- the error of merit values: penalty parameter times number of constraints times the errors of product and sum -/
def meritErr (q : LocalModel n m K) (δ eps : K) : K := q.penalty * (m * (δ + eps))

theorem cauchyPass_near {q : LocalModel n m K} {e : MeritEnv K} (he : EnvNear q e) (hpen : 0 ≤ q.penalty) (p : LsParams K) {d : Fin n → K} {δ : K} (hδ : 0 ≤ δ)
    {s : CauchyLs K} (hs : CauchyNear q d δ s) :
    ∃ v, |v - q.quad (s.delta • d)| ≤ meritErr q δ e.zeroEps ∧
      (0 < p.cauchyTau → p.cauchyTau ≤ 1 → CauchyNear q d δ (cauchyBack p v s)) ∧
      ((cauchyPass e p (q.viol 0) s = some (true, { s with merit := v }) ∧
          p.cauchyEta * (q.quad 0 - q.lin (s.delta • d)) ≤ q.quad 0 - q.quad (s.delta • d) + |1 - p.cauchyEta| * meritErr q δ e.zeroEps) ∨
        (cauchyPass e p (q.viol 0) s = some (false, cauchyBack p v s) ∧
          q.quad 0 - q.quad (s.delta • d) < p.cauchyEta * (q.quad 0 - q.lin (s.delta • d)) + |1 - p.cauchyEta| * meritErr q δ e.zeroEps)) := by
  have hd := he.data
  have hc : VOk m e.cons := hd.okC
  have hf : e.objVal = q.f := hd.f
  have hpe : e.penalty = q.penalty := hd.pen
  have hcv : dense m e.cons = q.c := hd.c
  obtain ⟨c, c1, c2, c3⟩ := addScaled_near (r0 := e.work) (1 : K) 1 he.eps hc hs.okC
  have htot : totalViolation e.numCons c e.consLb e.consUb = some (∑ i, viol (dense m c i) (q.lb i) (q.ub i)) := total_dense hd c2
  have hnear : |∑ i, viol (dense m c i) (q.lb i) (q.ub i) - q.viol (s.delta • d)| ≤ m * (δ + e.zeroEps) := by
    refine total_near (q := q) (c' := fun i => q.c i + (q.J *ᵥ (s.delta • d)) i) fun i => ?_
    have := comb_near (x' := q.c i) (y' := s.delta * (q.J *ᵥ d) i) (δ := 0) (δ' := s.delta * δ) (c3 i) (by rw [hcv, sub_self, abs_zero]) (hs.cj i)
    simp only [abs_one, one_mul, zero_add] at this
    rw [mulVec_smul]
    refine this.trans (add_le_add (mul_le_of_le_one_left hδ hs.le) le_rfl)
  generalize (∑ i, viol (dense m c i) (q.lb i) (q.ub i)) = lv at htot hnear
  have herr : |q.penalty * (lv - q.viol (s.delta • d))| ≤ meritErr q δ e.zeroEps := by
    rw [abs_mul, abs_of_nonneg hpen]
    exact mul_le_mul_of_nonneg_left hnear hpen
  have hlin : q.lin (s.delta • d) = q.f + s.od + q.penalty * q.viol (s.delta • d) := by
    unfold LocalModel.lin
    rw [hs.od, dotProduct_smul, smul_eq_mul]
  have hquad : q.quad (s.delta • d) = q.lin (s.delta • d) + 1 / 2 * s.hp := by rw [quad_smul, hs.hp]
  have hpass : cauchyPass e p (q.viol 0) s =
      if (q.penalty * (q.viol 0 - lv) - s.od) * (1 - p.cauchyEta) ≥ 1 / 2 * s.hp
      then some (true, { s with merit := q.f + s.od + q.penalty * lv + 1 / 2 * s.hp })
      else some (false, cauchyBack p (q.f + s.od + q.penalty * lv + 1 / 2 * s.hp) s) := by
    unfold cauchyPass
    rw [c1, Option.bind_some, htot, Option.bind_some]
    simp only [hf, hpe, cauchyBack]
  have hdiff : |(1 - p.cauchyEta) * (q.penalty * (lv - q.viol (s.delta • d)))| ≤ |1 - p.cauchyEta| * meritErr q δ e.zeroEps := by
    rw [abs_mul]; exact mul_le_mul_of_nonneg_left herr (abs_nonneg _)
  refine ⟨q.f + s.od + q.penalty * lv + 1 / 2 * s.hp, ?_, ?_, ?_⟩
  · rw [hquad, hlin]
    rwa [show q.f + s.od + q.penalty * lv + 1 / 2 * s.hp - (q.f + s.od + q.penalty * q.viol (s.delta • d) + 1 / 2 * s.hp) =
      q.penalty * (lv - q.viol (s.delta • d)) by ring]
  · intro t0 t1
    obtain ⟨k1, k2⟩ := scale_dense hs.okC p.cauchyTau
    refine ⟨?_, ?_, k1, fun i => ?_, mul_pos hs.pos t0, mul_le_one₀ hs.le t0.le t1⟩
    · show s.hp * _ = s.delta * p.cauchyTau * (s.delta * p.cauchyTau) * _
      rw [hs.hp]; ring
    · show s.od * _ = s.delta * p.cauchyTau * _
      rw [hs.od]; ring
    · show |dense m (s.cj.scale p.cauchyTau) i - s.delta * p.cauchyTau * _| ≤ s.delta * p.cauchyTau * δ
      rw [k2, Pi.smul_apply, smul_eq_mul,
        show p.cauchyTau * dense m s.cj i - s.delta * p.cauchyTau * (q.J *ᵥ d) i = p.cauchyTau * (dense m s.cj i - s.delta * (q.J *ᵥ d) i) by ring,
        abs_mul, abs_of_pos t0, show s.delta * p.cauchyTau * δ = p.cauchyTau * (s.delta * δ) by ring]
      exact mul_le_mul_of_nonneg_left (hs.cj i) t0.le
  · have a1 := (abs_le.1 hdiff).1
    have a2 := (abs_le.1 hdiff).2
    by_cases ht : (q.penalty * (q.viol 0 - lv) - s.od) * (1 - p.cauchyEta) ≥ 1 / 2 * s.hp
    · refine Or.inl ⟨by rw [hpass, if_pos ht], ?_⟩
      rw [hquad, hlin, quad_zero]
      linarith
    · refine Or.inr ⟨by rw [hpass, if_neg ht], ?_⟩
      rw [hquad, hlin, quad_zero]
      linarith

/-- what the loop achieves -/
structure LoopNear (q : LocalModel n m K) (p : LsParams K) (d : Fin n → K) (δ err : K) (s : CauchyLs K) (r : Bool × CauchyLs K) : Prop where
  okC : VOk m r.2.cj
  accept : r.1 = false → CauchyNear q d δ r.2 ∧
    p.cauchyEta * (q.quad 0 - q.lin (r.2.delta • d)) ≤ q.quad 0 - q.quad (r.2.delta • d) + |1 - p.cauchyEta| * err ∧
    |r.2.merit - q.quad (r.2.delta • d)| ≤ err ∧ r.2.delta ≤ s.delta
  zero : r.1 = true → r.2.full = false ∧ ∃ t : K, 0 < t ∧ t ≤ s.delta ∧ t * p.cauchyTau ≤ p.eps ∧
    q.quad 0 - q.quad (t • d) < p.cauchyEta * (q.quad 0 - q.lin (t • d)) + |1 - p.cauchyEta| * err

theorem cauchyLoop_near {q : LocalModel n m K} {e : MeritEnv K} (he : EnvNear q e) (hpen : 0 ≤ q.penalty) {p : LsParams K} (t0 : 0 < p.cauchyTau)
    (t1 : p.cauchyTau ≤ 1) {d : Fin n → K} {δ : K} (hδ : 0 ≤ δ) (k : Nat) : ∀ {s : CauchyLs K}, CauchyNear q d δ s → ∀ {r},
    cauchyLoop e p (q.viol 0) k s = some r → LoopNear q p d δ (meritErr q δ e.zeroEps) s r := by
  induction k with
  | zero => intro s _ r h; exact absurd h (by simp [cauchyLoop])
  | succ k ih =>
    intro s hs r h
    obtain ⟨v, i1, i2, ⟨i3, i4⟩ | ⟨i3, i4⟩⟩ := cauchyPass_near he hpen p hδ hs
    · rw [cauchyLoop, i3, Option.bind_some, cauchyNext, if_pos rfl, Option.some_inj] at h
      subst h
      exact ⟨hs.okC, fun _ => ⟨⟨hs.hp, hs.od, hs.okC, hs.cj, hs.pos, hs.le⟩, i4, i1, le_rfl⟩, fun h => absurd h (by simp)⟩
    · have i2' := i2 t0 t1
      rw [cauchyLoop, i3, Option.bind_some, cauchyNext, if_neg (by simp)] at h
      by_cases hz : isZero (cauchyBack p v s).delta p.eps = true
      · rw [if_pos hz, Option.some_inj] at h
        subst h
        exact ⟨i2'.okC, fun h => absurd h (by simp), fun _ => ⟨rfl, s.delta, hs.pos, le_rfl, le_trans (le_abs_self _) (isZero_iff.1 hz), i4⟩⟩
      · rw [if_neg hz] at h
        obtain ⟨o1, o2, o3⟩ := ih i2' h
        have hd : (cauchyBack p v s).delta ≤ s.delta := mul_le_of_le_one_right hs.pos.le t1
        refine ⟨o1, fun hr => ?_, fun hr => ?_⟩
        · obtain ⟨a, b, c, f⟩ := o2 hr
          exact ⟨a, b, c, f.trans hd⟩
        · obtain ⟨a, t, b, c, f⟩ := o3 hr
          exact ⟨a, t, b, c.trans hd, f⟩

theorem cauchyLoop_near_some {q : LocalModel n m K} {e : MeritEnv K} (he : EnvNear q e) (hpen : 0 ≤ q.penalty) {p : LsParams K} (t0 : 0 < p.cauchyTau)
    (t1 : p.cauchyTau ≤ 1) {d : Fin n → K} {δ : K} (hδ : 0 ≤ δ) (k : Nat) : ∀ {s : CauchyLs K}, CauchyNear q d δ s → s.delta * p.cauchyTau ^ (k + 1) ≤ p.eps →
    ∃ r, cauchyLoop e p (q.viol 0) (k + 1) s = some r := by
  induction k with
  | zero =>
    intro s hs h
    obtain ⟨v, i1, i2, ⟨i3, i4⟩ | ⟨i3, i4⟩⟩ := cauchyPass_near he hpen p hδ hs
    · rw [cauchyLoop, i3]; exact ⟨_, rfl⟩
    · have hz : isZero (cauchyBack p v s).delta p.eps = true := by
        rw [isZero_iff, abs_of_pos (i2 t0 t1).pos]
        show s.delta * p.cauchyTau ≤ _
        simpa using h
      rw [cauchyLoop, i3, Option.bind_some, cauchyNext, if_neg (by simp), if_pos hz]
      exact ⟨_, rfl⟩
  | succ k ih =>
    intro s hs h
    obtain ⟨v, i1, i2, ⟨i3, i4⟩ | ⟨i3, i4⟩⟩ := cauchyPass_near he hpen p hδ hs
    · rw [cauchyLoop, i3]; exact ⟨_, rfl⟩
    · rw [cauchyLoop, i3, Option.bind_some, cauchyNext, if_neg (by simp)]
      by_cases hz : isZero (cauchyBack p v s).delta p.eps = true
      · rw [if_pos hz]; exact ⟨_, rfl⟩
      · rw [if_neg hz]
        refine ih (i2 t0 t1) ?_
        show s.delta * p.cauchyTau * p.cauchyTau ^ (k + 1) ≤ _
        rw [mul_assoc, ← pow_succ']
        exact h

theorem cauchyShrink_near {q : LocalModel n m K} {D : Dir K} {d : Fin n → K} {δ : K} (h : DirNear q D d ⟨0, 0, δ, 0⟩) {radius norm : K} (hr : 0 < radius)
    (hn : 0 ≤ norm) :
    CauchyNear q d δ (cauchyShrink radius norm ⟨d ⬝ᵥ q.H *ᵥ d, D.objGrad, D.consJac, 1, true, 0⟩) ∧
      (cauchyShrink radius norm ⟨d ⬝ᵥ q.H *ᵥ d, D.objGrad, D.consJac, 1, true, 0⟩).delta = startLen radius norm := by
  obtain ⟨s1, s2, s3⟩ := startLen_spec hr hn
  have hg : D.objGrad = q.g ⬝ᵥ d := sub_eq_zero.1 (abs_nonpos_iff.1 h.grad)
  unfold startLen at s1 s2 ⊢
  unfold cauchyShrink
  split
  · rename_i hc
    rw [if_pos hc] at s1 s2
    obtain ⟨k1, k2⟩ := scale_dense h.okC (radius / norm)
    refine ⟨⟨by show _ * _ = _; ring, by show _ * _ = _; rw [hg]; ring, k1, fun i => ?_, s1, s2⟩, rfl⟩
    show |dense m (D.consJac.scale _) i - _| ≤ _
    rw [k2, Pi.smul_apply, smul_eq_mul, ← mul_sub, abs_mul, abs_of_pos s1]
    exact mul_le_mul_of_nonneg_left (h.jac i) s1.le
  · exact ⟨⟨by show _ = 1 * 1 * _; ring, by show _ = 1 * _; rw [hg, one_mul], h.okC,
      fun i => by show |dense m D.consJac i - 1 * _| ≤ 1 * _; rw [one_mul, one_mul]; exact h.jac i, zero_lt_one, le_rfl⟩, rfl⟩

theorem cauchyStep_near {q : LocalModel n m K} {e : MeritEnv K} (he : EnvNear q e) (p : LsParams K) (radius norm : K) {D : Dir K}
    {d : Fin n → K} {δ : K} (h : DirNear q D d ⟨0, 0, δ, 0⟩) :
    cauchyStep e p radius norm D =
      (cauchyLoop e p (q.viol 0) lsMaxIt (cauchyShrink radius norm ⟨d ⬝ᵥ q.H *ᵥ d, D.objGrad, D.consJac, 1, true, 0⟩)).bind fun r =>
        some (if r.1 then { D with consJac := r.2.cj }.setZero
              else ⟨D.primal.scale r.2.delta, r.2.od, r.2.cj, D.hess.scale r.2.delta⟩, r.2.full, r.2.merit) := by
  have hcv : dense m e.cons = q.c := he.data.c
  have hv : (∑ i, viol (dense m e.cons i) (q.lb i) (q.ub i)) = q.viol 0 := by
    unfold LocalModel.viol
    refine Finset.sum_congr rfl fun i _ => ?_
    rw [hcv, mulVec_zero, Pi.zero_apply, add_zero]
  have htot : totalViolation e.numCons e.cons e.consLb e.consUb = some (∑ i, viol (dense m e.cons i) (q.lb i) (q.ub i)) := total_dense he.data he.data.okC
  have hP : dense n D.primal = d := funext fun i => sub_eq_zero.1 (abs_nonpos_iff.1 (h.primal i))
  have hH : dense n D.hess = q.H *ᵥ d := funext fun i => sub_eq_zero.1 (abs_nonpos_iff.1 (h.hess i))
  unfold cauchyStep
  rw [htot, Option.bind_some, hv, dot_dense h.okP h.okH, Option.bind_some, hP, hH]

/-! ### C43 -/

/-- C43, for any drop tolerance: given a direction whose Jacobian product is right up to `δ` (after a reset, `δ` is the tolerance), the search returns a multiple in (0,1] of
the step, inside the trust region, with sufficient decrease of the quadratic model and its merit value, both up to an error proportional to penalty parameter,
number of constraints and tolerance, or gives up with the zero step. -/
theorem C43_step_near {q : LocalModel n m K} {e : MeritEnv K} (he : EnvNear q e) (hpen : 0 ≤ q.penalty) {D : Dir K} {d : Fin n → K} {δ : K} (hδ : 0 ≤ δ)
    (h : DirNear q D d ⟨0, 0, δ, 0⟩) {p : LsParams K} {radius norm : K} (hp : CauchyOk p radius norm d) {D' : Dir K} {full : Bool} {merit : K}
    (hr : cauchyStep e p radius norm D = some (D', full, merit)) :
    (∃ t : K, 0 < t ∧ t ≤ 1 ∧ DirNear q D' (t • d) ⟨0, 0, t * δ, 0⟩ ∧ (t • d) ⬝ᵥ (t • d) ≤ radius * radius ∧
      p.cauchyEta * (q.quad 0 - q.lin (t • d)) ≤ q.quad 0 - q.quad (t • d) + |1 - p.cauchyEta| * (q.penalty * (m * (δ + e.zeroEps))) ∧
      |merit - q.quad (t • d)| ≤ q.penalty * (m * (δ + e.zeroEps))) ∨
    (DirFor q D' 0 ∧ full = false) := by
  obtain ⟨i1, i2⟩ := cauchyShrink_near h hp.radius hp.normNonneg
  rw [cauchyStep_near he p radius norm h, Option.bind_eq_some_iff] at hr
  obtain ⟨r, r1, r2⟩ := hr
  have out := cauchyLoop_near he hpen hp.tauPos hp.tauLe hδ _ i1 r1
  rw [Option.some_inj, Prod.mk.injEq, Prod.mk.injEq] at r2
  obtain ⟨rD, rf, rm⟩ := r2
  cases hb : r.1 with
  | false =>
    obtain ⟨a, b, c, f⟩ := out.accept hb
    left
    rw [hb] at rD
    simp only [Bool.false_eq_true, if_false] at rD
    obtain ⟨s1, s2, s3⟩ := startLen_spec hp.radius hp.normNonneg
    have hs := scale_near h r.2.delta
    refine ⟨r.2.delta, a.pos, a.le, ?_, ?_, b, by rw [← rm]; exact c⟩
    · rw [← rD]
      refine ⟨hs.okP, a.okC, hs.okH, fun i => (hs.primal i).trans_eq (mul_zero _), ?_, fun i => ?_, fun i => (hs.hess i).trans_eq (mul_zero _)⟩
      · show |r.2.od - _| ≤ 0
        rw [a.od, dotProduct_smul, smul_eq_mul, sub_self, abs_zero]
      · rw [mulVec_smul]; exact a.cj i
    · rw [smul_dotProduct, dotProduct_smul, smul_eq_mul, smul_eq_mul, ← hp.norm]
      have e1 : r.2.delta * norm ≤ radius :=
        le_trans (mul_le_mul_of_nonneg_right (by rw [i2] at f; exact f) hp.normNonneg) s3
      have e0 : 0 ≤ r.2.delta * norm := mul_nonneg a.pos.le hp.normNonneg
      calc r.2.delta * (r.2.delta * (norm * norm)) = (r.2.delta * norm) * (r.2.delta * norm) := by ring
        _ ≤ radius * radius := mul_le_mul e1 e1 e0 (e0.trans e1)
  | true =>
    right
    rw [hb] at rD
    simp only [if_true] at rD
    obtain ⟨z1, z2⟩ := out.zero hb
    obtain ⟨p1, p2⟩ := clear_vok h.okP
    obtain ⟨c1, c2⟩ := clear_vok out.okC
    obtain ⟨h1, h2⟩ := clear_vok h.okH
    refine ⟨?_, by rw [← rf, z1]⟩
    rw [← rD]
    exact ⟨p1, c1, h1, p2, by rw [dotProduct_zero]; rfl, by rw [mulVec_zero]; exact c2, by rw [mulVec_zero]; exact h2⟩

/-- C43, for any drop tolerance: the search terminates within the iteration limit if the smallest trial step length is negligible. -/
theorem C43_terminates_near {q : LocalModel n m K} {e : MeritEnv K} (he : EnvNear q e) (hpen : 0 ≤ q.penalty) {D : Dir K} {d : Fin n → K} {δ : K} (hδ : 0 ≤ δ)
    (h : DirNear q D d ⟨0, 0, δ, 0⟩) {p : LsParams K} {radius norm : K} (hp : CauchyOk p radius norm d) (hl : p.cauchyTau ^ 10000 ≤ p.eps) :
    ∃ r, cauchyStep e p radius norm D = some r := by
  obtain ⟨i1, i2⟩ := cauchyShrink_near h hp.radius hp.normNonneg
  obtain ⟨r, hr⟩ := cauchyLoop_near_some he hpen hp.tauPos hp.tauLe hδ 9999 i1
    (le_trans (mul_le_of_le_one_left (pow_nonneg hp.tauPos.le _) i1.le) hl)
  rw [cauchyStep_near he p radius norm h]
  exact ⟨_, by rw [show lsMaxIt = 9999 + 1 from rfl, hr]; rfl⟩

/-- C43, for any drop tolerance: the search does not give up when the linear model promises enough compared with the curvature and the errors. -/
theorem C43_progress_near {q : LocalModel n m K} {e : MeritEnv K} (he : EnvNear q e) (hpen : 0 ≤ q.penalty) {D : Dir K} {d : Fin n → K} {δ : K} (hδ : 0 ≤ δ)
    (h : DirNear q D d ⟨0, 0, δ, 0⟩) {p : LsParams K} {radius norm : K} (hp : CauchyOk p radius norm d) (heta : p.cauchyEta ≤ 1)
    (hgain : ∀ t : K, 0 < t → t ≤ 1 → t * p.cauchyTau ≤ p.eps →
      t * t * (d ⬝ᵥ q.H *ᵥ d) + 2 * ((1 - p.cauchyEta) * (q.penalty * (m * (δ + e.zeroEps)))) ≤ 2 * (t * ((1 - p.cauchyEta) * (q.quad 0 - q.lin d))))
    {D' : Dir K} {full : Bool} {merit : K} (hr : cauchyStep e p radius norm D = some (D', full, merit)) :
    ∃ t : K, 0 < t ∧ t ≤ 1 ∧ DirNear q D' (t • d) ⟨0, 0, t * δ, 0⟩ ∧ |merit - q.quad (t • d)| ≤ q.penalty * (m * (δ + e.zeroEps)) := by
  obtain ⟨i1, i2⟩ := cauchyShrink_near h hp.radius hp.normNonneg
  rw [cauchyStep_near he p radius norm h, Option.bind_eq_some_iff] at hr
  obtain ⟨r, r1, r2⟩ := hr
  have out := cauchyLoop_near he hpen hp.tauPos hp.tauLe hδ _ i1 r1
  have hfalse : r.1 = false := by
    by_contra hb
    obtain ⟨-, t, ht0, ht1, ht2, ht3⟩ := out.zero (by simpa using hb)
    have ht1' : t ≤ 1 := ht1.trans i1.le
    have hv := mul_le_mul_of_nonneg_left (model_viol_convex q d ht0.le ht1') hpen
    have hlin : t * (q.quad 0 - q.lin d) ≤ q.quad 0 - q.lin (t • d) := by
      rw [quad_zero]
      unfold LocalModel.lin
      rw [dotProduct_smul, smul_eq_mul]
      linarith
    have h1 := mul_le_mul_of_nonneg_left hlin (sub_nonneg.2 heta)
    have h2 := hgain t ht0 ht1' ht2
    rw [abs_of_nonneg (sub_nonneg.2 heta), quad_smul] at ht3
    unfold meritErr at ht3
    linarith
  rw [Option.some_inj, Prod.mk.injEq, Prod.mk.injEq] at r2
  obtain ⟨rD, rf, rm⟩ := r2
  obtain ⟨a, b, c, f⟩ := out.accept hfalse
  have hs := scale_near h r.2.delta
  rw [hfalse] at rD
  simp only [Bool.false_eq_true, if_false] at rD
  refine ⟨r.2.delta, a.pos, a.le, ?_, by rw [← rm]; exact c⟩
  rw [← rD]
  refine ⟨hs.okP, a.okC, hs.okH, fun i => (hs.primal i).trans_eq (mul_zero _), ?_, fun i => ?_, fun i => (hs.hess i).trans_eq (mul_zero _)⟩
  · show |r.2.od - _| ≤ 0
    rw [a.od, dotProduct_smul, smul_eq_mul, sub_self, abs_zero]
  · rw [mulVec_smul]; exact a.cj i

/-! ### a sample: the model of `DirectionEps.lean`, step 1 with the Jacobian product 9/4 instead of 2, tolerance 1/2 -/

theorem exNearCauchyOk : CauchyOk exLs (1 / 2) 1 ![(1 : ℚ)] :=
  ⟨by norm_num [exLs], by norm_num [exLs], by norm_num, by norm_num, by simp [dotProduct]⟩

example : (cauchyStep exNearEnv exLs (1 / 2) 1 exNearDir).map (fun r => (r.1.primal.ents, r.1.consJac.ents, r.2)) =
    some ([(0, 1 / 4)], [(0, 9 / 16)], false, 45 / 16) := by
  decide +kernel

end Sleqp

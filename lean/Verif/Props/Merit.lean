import Verif.Model.StepRule
import Verif.Props.Feas
import Verif.Props.Vec
import Mathlib.Tactic.FieldSimp

/-!
C16 (merit function and its models), C17 (direct acceptance rule).
-/

namespace Sleqp

open Finset

variable {K : Type*} [Field K] [LinearOrder K] [IsStrictOrderedRing K]

/-! ### C16 -/

/-- Sum of the distances of `c i` from `[lb i, ub i]`. -/
def sumViol (n : Nat) (c lb ub : Nat → K) : K := ∑ i ∈ range n, viol (c i) (lb i) (ub i)

theorem sumViol_nonneg (n : Nat) (c lb ub : Nat → K) : 0 ≤ sumViol n c lb ub :=
  Finset.sum_nonneg fun _ _ => viol_nonneg _ _ _

/-- The merit value is objective plus penalty times total violation. -/
theorem C16_merit_value {m : Nat} {p : Bounds K} {it : Iterate K}
    (h : Boxed m it.consVal p.consLb p.consUb) (pen : K) :
    meritFunc m p it pen =
      some (it.objVal + pen * sumViol m it.consVal.value p.consLb.value p.consUb.value) := by
  unfold meritFunc; rw [C12_total_violation h]; rfl

/-- never below the objective -/
theorem C16_merit_ge_obj {m : Nat} {p : Bounds K} {it : Iterate K}
    (h : Boxed m it.consVal p.consLb p.consUb) {pen v : K} (hp : 0 ≤ pen)
    (hv : meritFunc m p it pen = some v) : it.objVal ≤ v := by
  rw [C16_merit_value h] at hv; cases hv
  have := mul_nonneg hp (sumViol_nonneg m it.consVal.value p.consLb.value p.consUb.value)
  linarith

/-- equal to the objective exactly at feasible points -/
theorem C16_merit_eq_obj_iff {m : Nat} {p : Bounds K} {it : Iterate K}
    (h : Boxed m it.consVal p.consLb p.consUb) {pen : K} (hp : 0 < pen) :
    meritFunc m p it pen = some it.objVal ↔
      ∀ i < m, p.consLb.value i ≤ it.consVal.value i ∧ it.consVal.value i ≤ p.consUb.value i := by
  rw [C16_merit_value h, Option.some_inj, ← C12_total_zero_iff h, C12_total_violation h,
    Option.some_inj]
  have hs : sumViol m it.consVal.value p.consLb.value p.consUb.value =
    ∑ i ∈ range m, viol (it.consVal.value i) (p.consLb.value i) (p.consUb.value i) := rfl
  rw [← hs]
  constructor
  · intro h1
    have : pen * sumViol m it.consVal.value p.consLb.value p.consUb.value = 0 := by linarith
    rcases mul_eq_zero.mp this with h2 | h2
    · exact absurd h2 hp.ne'
    · exact h2
  · intro h1; rw [h1]; simp

/-- nondecreasing in the penalty -/
theorem C16_merit_mono {m : Nat} {p : Bounds K} {it : Iterate K}
    (h : Boxed m it.consVal p.consLb p.consUb) {pen pen' v v' : K} (hp : pen ≤ pen')
    (hv : meritFunc m p it pen = some v) (hv' : meritFunc m p it pen' = some v') : v ≤ v' := by
  rw [C16_merit_value h] at hv hv'; cases hv; cases hv'
  have := mul_le_mul_of_nonneg_right hp
    (sumViol_nonneg m it.consVal.value p.consLb.value p.consUb.value)
  linarith

/-- A direction that fits `n` variables and `m` constraints. -/
structure Direction.Fits (n m : Nat) (d : Direction K) : Prop where
  wp : d.primal.WF
  wj : d.consJac.WF
  wh : d.hess.WF
  dp : d.primal.dim = n
  dj : d.consJac.dim = m
  dh : d.hess.dim = n

theorem add_box {m : Nat} {p : Bounds K} {it : Iterate K} {d : Direction K}
    (h : Boxed m it.consVal p.consLb p.consUb) (wj : d.consJac.WF) (dj : d.consJac.dim = m)
    {eps : K} (he : 0 ≤ eps) (tmp : Vec K) :
    ∃ c, Vec.addScaled d.consJac it.consVal 1 1 eps tmp = some c ∧
      Boxed m c p.consLb p.consUb ∧
      ∀ i, c.value i = if |d.consJac.value i + it.consVal.value i| ≤ eps then 0
        else d.consJac.value i + it.consVal.value i := by
  obtain ⟨c, h1, h2, h3, h4⟩ := C03_add_scaled d.consJac it.consVal tmp 1 1 eps wj h.wc
    (dj.trans h.dc.symm) he
  refine ⟨c, h1, ⟨h2, h.wl, h.wu, h3.trans dj, h.dl, h.du, h.le⟩, ?_⟩
  intro i; rw [h4]; simp only [one_mul]

/-- The linear model: `f + ∇fᵀd + penalty · violation(c + J d)`, exactly if no
entries are dropped (`zero_eps = 0`) and up to `penalty · m · zero_eps` otherwise. -/
theorem C16_linear_value {m : Nat} {p : Bounds K} {it : Iterate K} {d : Direction K}
    (h : Boxed m it.consVal p.consLb p.consUb) (wj : d.consJac.WF) (dj : d.consJac.dim = m)
    {eps pen : K} (he : 0 ≤ eps) (hp : 0 ≤ pen) (tmp : Vec K) :
    ∃ v, meritLinear m p it d pen eps tmp = some v ∧
      |v - (it.objVal + d.objGrad + pen * sumViol m (fun i => it.consVal.value i + d.consJac.value i)
        p.consLb.value p.consUb.value)| ≤ pen * (m * eps) := by
  obtain ⟨c, h1, h2, h3⟩ := add_box h wj dj he tmp
  refine ⟨it.objVal + d.objGrad + pen * sumViol m c.value p.consLb.value p.consUb.value, ?_, ?_⟩
  · unfold meritLinear; rw [h1, Option.bind_some, C12_total_violation h2]; rfl
  · rw [add_sub_add_left_eq_sub, ← mul_sub, abs_mul, abs_of_nonneg hp]
    refine mul_le_mul_of_nonneg_left ?_ hp
    unfold sumViol
    rw [← Finset.sum_sub_distrib]
    refine le_trans (Finset.abs_sum_le_sum_abs _ _) ?_
    have : (m : K) * eps = ∑ _i ∈ range m, eps := by simp
    rw [this]
    apply Finset.sum_le_sum
    intro i _
    refine le_trans (viol_lipschitz _ _ _ _) ?_
    simp only []
    rw [h3 i, add_comm (it.consVal.value i)]
    split_ifs with hs
    · rw [zero_sub, abs_neg]; exact hs
    · simp [he]

/-- The quadratic model adds `½ dᵀ(H d)`. -/
theorem C16_quadratic_value {n m : Nat} {p : Bounds K} {it : Iterate K} {d : Direction K}
    (hd : d.Fits n m) {pen eps l : K} {tmp : Vec K} (hl : meritLinear m p it d pen eps tmp = some l) :
    meritQuadratic m p it d pen eps tmp =
      some (l + (∑ j ∈ range n, d.primal.value j * d.hess.value j) / 2) := by
  unfold meritQuadratic
  rw [hl, Option.bind_some]
  unfold Vec.dot
  rw [if_pos (hd.dp.trans hd.dh.symm), Option.map_some, dotList_eq hd.wp.srt hd.wh.srt, zero_add,
    ← sum_range_valAt hd.wp.srt (n := n) (hd.dp ▸ hd.wp.lt_dim)
        (fun i a => a * valAt d.hess.ents i) (by simp)]
  congr 1
  unfold Vec.value
  ring

/-- At the zero step both models agree with the merit function
(no entries dropped).
This is for `zero_eps = 0`; with a positive drop tolerance it fails (`C16_drop_violated`). -/
theorem C16_models_at_zero_partial {n m : Nat} {p : Bounds K} {it : Iterate K} {d : Direction K}
    (h : Boxed m it.consVal p.consLb p.consUb) (hd : d.Fits n m) {pen : K} (hp : 0 ≤ pen) (tmp : Vec K)
    (z1 : ∀ i, d.primal.value i = 0) (z2 : d.objGrad = 0) (z3 : ∀ i, d.consJac.value i = 0) :
    meritLinear m p it d pen 0 tmp = meritFunc m p it pen ∧
    meritQuadratic m p it d pen 0 tmp = meritFunc m p it pen := by
  obtain ⟨v, h1, h2⟩ := C16_linear_value h hd.wj hd.dj (le_refl (0 : K)) hp tmp
  simp only [mul_zero, abs_nonpos_iff, z2, z3, add_zero] at h2
  have h3 : meritFunc m p it pen = some v := by
    rw [C16_merit_value h, ← sub_eq_zero.mp h2]
  refine ⟨h1.trans h3.symm, ?_⟩
  rw [C16_quadratic_value hd h1, h3]
  simp [z1]

/-- The linear model is convex: its value along a convex combination of two
directions is at most the combination of the values.
This is for `zero_eps = 0`; a positive drop tolerance is missing. -/
theorem C16_linear_convex_partial {m : Nat} {p : Bounds K} {it : Iterate K} {d0 d1 d : Direction K}
    (h : Boxed m it.consVal p.consLb p.consUb)
    (w0 : d0.consJac.WF) (w1 : d1.consJac.WF) (w : d.consJac.WF)
    (e0 : d0.consJac.dim = m) (e1 : d1.consJac.dim = m) (e : d.consJac.dim = m)
    {s : K} (hs0 : 0 ≤ s) (hs1 : s ≤ 1)
    (hg : d.objGrad = (1 - s) * d0.objGrad + s * d1.objGrad)
    (hj : ∀ i, d.consJac.value i = (1 - s) * d0.consJac.value i + s * d1.consJac.value i)
    {pen v0 v1 v : K} (hp : 0 ≤ pen) {t0 t1 t : Vec K}
    (hv0 : meritLinear m p it d0 pen 0 t0 = some v0)
    (hv1 : meritLinear m p it d1 pen 0 t1 = some v1)
    (hv : meritLinear m p it d pen 0 t = some v) :
    v ≤ (1 - s) * v0 + s * v1 := by
  have key : ∀ {d : Direction K} (_ : d.consJac.WF) (_ : d.consJac.dim = m) {v : K} {t : Vec K}
      (_ : meritLinear m p it d pen 0 t = some v),
      v = it.objVal + d.objGrad + pen * sumViol m (fun i => it.consVal.value i + d.consJac.value i)
        p.consLb.value p.consUb.value := by
    intro d w e v t hv
    obtain ⟨v', h1, h2⟩ := C16_linear_value h w e (le_refl (0 : K)) hp t
    rw [hv] at h1; cases h1
    simp only [mul_zero, abs_nonpos_iff] at h2
    exact sub_eq_zero.mp h2
  have k0 := key w0 e0 hv0
  have k1 := key w1 e1 hv1
  have k := key w e hv
  have hsum : sumViol m (fun i => it.consVal.value i + d.consJac.value i) p.consLb.value p.consUb.value ≤
      (1 - s) * sumViol m (fun i => it.consVal.value i + d0.consJac.value i) p.consLb.value p.consUb.value +
      s * sumViol m (fun i => it.consVal.value i + d1.consJac.value i) p.consLb.value p.consUb.value := by
    unfold sumViol
    rw [Finset.mul_sum, Finset.mul_sum, ← Finset.sum_add_distrib]
    apply Finset.sum_le_sum
    intro i _
    have := viol_convex (it.consVal.value i + d0.consJac.value i)
      (it.consVal.value i + d1.consJac.value i) (p.consLb.value i) (p.consUb.value i) s hs0 hs1
    have e : (1 - s) * (it.consVal.value i + d0.consJac.value i) +
        s * (it.consVal.value i + d1.consJac.value i) = it.consVal.value i + d.consJac.value i := by
      rw [hj]; ring
    rw [e] at this
    exact this
  have := mul_le_mul_of_nonneg_left hsum hp
  rw [k, k0, k1, hg]
  linear_combination this

/-- non-vacuity: at the sample point, merit with penalty 10 is 7 + 10·4 -/
example : meritFunc 3 ⟨⟨0, 0, []⟩, ⟨0, 0, []⟩, exLb, exUb⟩
    ⟨⟨0, 0, []⟩, 7, ⟨0, 0, []⟩, exC, Mat.create 3 0 0 (fun _ => 0) (fun _ => 0), ⟨3, 0, []⟩, ⟨0, 0, []⟩⟩ 10 = some (47 : ℚ) := by
  rw [C16_merit_value exBoxed]; decide +kernel

/-! ### C17 -/

/-- Direct rule, predicted decrease above the rounding level `2 eps`: acceptance
means at least the required fraction of the predicted decrease was achieved
(up to the rounding correction `eps`), hence the merit value strictly decreases. -/
theorem C17_accept_decrease_partial {eps rho f t m r : K} (he : 0 < eps) (hrho : 0 < rho)
    (hm : 2 * eps < f - m) (hacc : directApply eps rho f t m = some (true, r)) :
    rho * (f - m - eps) + eps ≤ f - t ∧ t < f := by
  unfold directApply reductionRatio at hacc
  rw [if_neg (by
    rintro ⟨h1, _⟩
    have := (abs_le.mp h1).2
    linarith)] at hacc
  unfold cdiv at hacc
  rw [if_neg (by intro h; linarith)] at hacc
  simp only [Option.map_some, Option.some_inj, Prod.mk.injEq, decide_eq_true_eq] at hacc
  have hden : 0 < f - m - eps := by linarith
  have h1 : rho * (f - m - eps) ≤ f - t - eps := (le_div_iff₀ hden).mp hacc.1
  have h2 := mul_pos hrho hden
  constructor <;> linarith

/-- Conversely a step achieving the full predicted decrease is accepted
(for thresholds up to 1). -/
theorem C17_good_step_accepted {eps rho f t m : K} (he : 0 < eps) (hrho : rho ≤ 1)
    (hm : 2 * eps < f - m) (ht : t ≤ m) :
    ∃ r, directApply eps rho f t m = some (true, r) := by
  have hden : 0 < f - m - eps := by linarith
  have hn : ¬ (|f - m - eps| ≤ eps ∧ |f - t - eps| ≤ eps) := by
    rintro ⟨h1, _⟩
    have := (abs_le.mp h1).2
    linarith
  refine ⟨(f - t - eps) / (f - m - eps), ?_⟩
  unfold directApply reductionRatio cdiv
  rw [if_neg hn, if_neg hden.ne']
  have : rho ≤ (f - t - eps) / (f - m - eps) := by
    refine le_trans hrho ?_
    rw [le_div_iff₀ hden]; linarith
  simp [this]

/-- In the rounding zone (both reductions within `[0, 2 eps]`) the step is
accepted but never increases the merit value. -/
theorem C17_rounding_zone {eps f t m : K} (h1 : |f - m - eps| ≤ eps) (h2 : |f - t - eps| ≤ eps) :
    reductionRatio eps (f - t) (f - m) = some 1 ∧ t ≤ f := by
  refine ⟨by unfold reductionRatio; rw [if_pos ⟨h1, h2⟩], ?_⟩
  have := (abs_le.mp h2).1
  linarith

/-- The code violates the property when the predicted decrease is 0: a step that
increases the merit value by 1 is accepted (here `eps = 1/1000`, threshold 1/100). -/
theorem C17_zero_prediction_violated :
    ∃ r, directApply (1/1000 : ℚ) (1/100) 0 1 0 = some (true, r) := by
  refine ⟨1001, ?_⟩
  unfold directApply reductionRatio cdiv
  norm_num [abs_le]

/-- non-vacuity: predicted decrease 3, achieved decrease 2: accepted -/
example : ∃ r, directApply (1/1000 : ℚ) (1/100) 10 8 7 = some (true, r) := by
  refine ⟨1999/2999, ?_⟩
  unfold directApply reductionRatio cdiv
  norm_num [abs_le]

end Sleqp

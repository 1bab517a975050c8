import Verif.Spec.ParametricEps
import Verif.Props.Parametric
import Verif.Props.CauchyLsEps

/-!
C79 for any drop tolerance.
-/

namespace Sleqp
variable {K : Type*} [Field K] [LinearOrder K] [IsStrictOrderedRing K]
variable {n m : Nat}
open Matrix

/-! ### lemmas -/

theorem par_sufficient_near {q : LocalModel n m K} {e : ParEnv K} (he : EnvNear q e.merits) (hpen : 0 ≤ q.penalty) {D : Dir K} {d : Fin n → K}
    (h : DirNear q D d ⟨0, 0, e.merits.zeroEps, 0⟩) :
    ∃ b v, e.sufficient (q.viol 0) D = some (b, v) ∧ |v - q.quad d| ≤ e.err q ∧ (b = true → SuffUpTo q e.eta (e.err q) d) ∧
      (b = false → ¬ SuffDespite q e.eta (e.err q) d) := by
  have hd := he.data
  have hc : VOk m e.merits.cons := hd.okC
  have hf : e.merits.objVal = q.f := hd.f
  have hpe : e.merits.penalty = q.penalty := hd.pen
  have hcv : dense m e.merits.cons = q.c := hd.c
  obtain ⟨c, c1, c2, c3⟩ := addScaled_near (r0 := e.merits.work) (1 : K) 1 he.eps hc h.okC
  have htot : totalViolation e.merits.numCons c e.merits.consLb e.merits.consUb = some (∑ i, viol (dense m c i) (q.lb i) (q.ub i)) :=
    total_dense hd c2
  have hnear : |∑ i, viol (dense m c i) (q.lb i) (q.ub i) - q.viol d| ≤ m * (e.merits.zeroEps + e.merits.zeroEps) := by
    refine total_near (q := q) (c' := fun i => q.c i + (q.J *ᵥ d) i) fun i => ?_
    have := comb_near (x' := q.c i) (y' := (q.J *ᵥ d) i) (δ := 0) (c3 i) (by rw [hcv, sub_self, abs_zero]) (h.jac i)
    simp only [abs_one, one_mul, zero_add] at this
    exact this
  generalize (∑ i, viol (dense m c i) (q.lb i) (q.ub i)) = lv at htot hnear
  have herr : |q.penalty * (lv - q.viol d)| ≤ e.err q := by
    rw [abs_mul, abs_of_nonneg hpen]
    exact mul_le_mul_of_nonneg_left hnear hpen
  have hP : dense n D.primal = d := funext fun i => sub_eq_zero.1 (abs_nonpos_iff.1 (h.primal i))
  have hH : dense n D.hess = q.H *ᵥ d := funext fun i => sub_eq_zero.1 (abs_nonpos_iff.1 (h.hess i))
  have hG : D.objGrad = q.g ⬝ᵥ d := sub_eq_zero.1 (abs_nonpos_iff.1 h.grad)
  refine ⟨_, _, by
    unfold ParEnv.sufficient
    rw [c1, Option.bind_some, htot, Option.bind_some, dot_dense h.okP h.okH, Option.bind_some], ?_, ?_, ?_⟩
  · rw [hP, hH, hG, hf, hpe]
    have : q.f + q.g ⬝ᵥ d + q.penalty * lv + 1 / 2 * (d ⬝ᵥ q.H *ᵥ d) - q.quad d = q.penalty * (lv - q.viol d) := by
      unfold LocalModel.quad LocalModel.lin
      ring
    rw [this]
    exact herr
  all_goals
    rw [hP, hH, hG, hpe]
    have hx : |(1 - e.eta) * (q.penalty * (lv - q.viol d))| ≤ |1 - e.eta| * e.err q := by
      rw [abs_mul]
      exact mul_le_mul_of_nonneg_left herr (abs_nonneg _)
    obtain ⟨x1, x2⟩ := abs_le.1 hx
    intro hb
  · have hb' := of_decide_eq_true hb
    unfold SuffUpTo
    rw [quad_zero_eq, lin_zero_eq]
    unfold LocalModel.quad LocalModel.lin
    have hb2 : 1 / 2 * (d ⬝ᵥ q.H *ᵥ d) ≤ (q.penalty * (q.viol 0 - lv) - q.g ⬝ᵥ d) * (1 - e.eta) := hb'
    linarith
  · have hb' := of_decide_eq_false hb
    unfold SuffDespite
    rw [quad_zero_eq, lin_zero_eq]
    unfold LocalModel.quad LocalModel.lin
    have hb2 : (q.penalty * (q.viol 0 - lv) - q.g ⬝ᵥ d) * (1 - e.eta) < 1 / 2 * (d ⬝ᵥ q.H *ᵥ d) := not_le.1 hb'
    intro hs
    linarith

/-- resetting a direction whose step has been replaced -/
theorem par_reset_near {q : LocalModel n m K} {sol : K → Fin n → K} {e : ParEnv K} (he : ParNear q sol e) {D : Dir K} (hD : DirStore n m D)
    {p : Vec K} (hp : VOk n p) :
    ∃ D', ({ D with primal := p } : Dir K).reset e.merits.numCons e.grad e.jac e.hp e.merits.zeroEps = some D' ∧
      DirNear q D' (dense n p) ⟨0, 0, e.merits.zeroEps, 0⟩ := by
  have hnum : e.merits.numCons = m := he.merits.data.num
  rw [hnum]
  exact reset_near q { D with primal := p } e.grad e.jac e.hp he.merits.eps hp hD.okC hD.okH he.okG he.grad he.okJ.1 he.okJ.2 he.jac he.hess

omit [IsStrictOrderedRing K] in
theorem DirNear.store {q : LocalModel n m K} {D : Dir K} {d : Fin n → K} {δ : DirErr K} (h : DirNear q D d δ) : DirStore n m D :=
  ⟨h.okP, h.okC, h.okH⟩

/-- step and Hessian product belong to `d`, gradient and (up to the tolerance) Jacobian product to `d0` -/
structure MixedNear (q : LocalModel n m K) (d0 d : Fin n → K) (eps : K) (D : Dir K) : Prop where
  store : DirStore n m D
  primal : dense n D.primal = d
  hess : dense n D.hess = q.H *ᵥ d
  grad : D.objGrad = q.g ⬝ᵥ d0
  jac : ∀ i, |dense m D.consJac i - (q.J *ᵥ d0) i| ≤ eps

theorem mixedNear_self {q : LocalModel n m K} {D : Dir K} {d : Fin n → K} {eps : K} (h : DirNear q D d ⟨0, 0, eps, 0⟩) : MixedNear q d d eps D :=
  ⟨h.store, funext fun i => sub_eq_zero.1 (abs_nonpos_iff.1 (h.primal i)), funext fun i => sub_eq_zero.1 (abs_nonpos_iff.1 (h.hess i)),
    sub_eq_zero.1 (abs_nonpos_iff.1 h.grad), h.jac⟩

omit [IsStrictOrderedRing K] in
theorem mixedNear_copy {q : LocalModel n m K} {D T : Dir K} {d0 d : Fin n → K} {eps : K} (h : MixedNear q d0 d eps D) (hT : DirStore n m T) :
    ∃ D', D.copy T = some D' ∧ MixedNear q d0 d eps D' := by
  obtain ⟨p, p1, p2, p3⟩ := copy_spec h.store.okP hT.okP.2
  obtain ⟨c, c1, c2, c3⟩ := copy_spec h.store.okC hT.okC.2
  obtain ⟨s, s1, s2, s3⟩ := copy_spec h.store.okH hT.okH.2
  refine ⟨⟨p, D.objGrad, c, s⟩, ?_, ⟨⟨p2, c2, s2⟩, ?_, ?_, h.grad, fun i => ?_⟩⟩
  · unfold Dir.copy
    rw [p1, Option.bind_some, c1, Option.bind_some, s1]
    rfl
  · rw [← h.primal]; exact dense_of_ents p3
  · rw [← h.hess]; exact dense_of_ents s3
  · show |dense m c i - _| ≤ _
    rw [dense_of_ents c3]; exact h.jac i

theorem par_forwardMerit_near {q : LocalModel n m K} {sol : K → Fin n → K} {e : ParEnv K} (he : ParNear q sol e) (hpen : 0 ≤ q.penalty)
    {D : Dir K} {d0 d : Fin n → K} (h : MixedNear q d0 d e.merits.zeroEps D) {p : Vec K} (hp : VOk n p) :
    ∃ D' v, e.forwardMerit { D with primal := p } = some (D', v) ∧ |v - mixedMerit q d0 (dense n p)| ≤ e.err q ∧
      MixedNear q d0 (dense n p) e.merits.zeroEps D' := by
  obtain ⟨w, w1, w2, w3⟩ := he.hess p D.hess hp h.store.okH
  have hd := he.merits.data
  have hc : VOk m e.merits.cons := hd.okC
  have hf : e.merits.objVal = q.f := hd.f
  have hpe : e.merits.penalty = q.penalty := hd.pen
  have hcv : dense m e.merits.cons = q.c := hd.c
  obtain ⟨c, c1, c2, c3⟩ := addScaled_near (r0 := e.merits.work) (1 : K) 1 he.merits.eps h.store.okC hc
  have htot : totalViolation e.merits.numCons c e.merits.consLb e.merits.consUb = some (∑ i, viol (dense m c i) (q.lb i) (q.ub i)) :=
    total_dense hd c2
  have hnear : |∑ i, viol (dense m c i) (q.lb i) (q.ub i) - q.viol d0| ≤ m * (e.merits.zeroEps + e.merits.zeroEps) := by
    refine total_near (q := q) (c' := fun i => q.c i + (q.J *ᵥ d0) i) fun i => ?_
    have := comb_near (y' := q.c i) (x' := (q.J *ᵥ d0) i) (δ' := 0) (c3 i) (h.jac i) (by rw [hcv, sub_self, abs_zero])
    simp only [abs_one, one_mul, mul_zero, add_zero] at this
    rwa [add_comm (q.c i)]
  generalize (∑ i, viol (dense m c i) (q.lb i) (q.ub i)) = lv at htot hnear
  refine ⟨{ D with primal := p, hess := w }, q.f + q.g ⬝ᵥ d0 + q.penalty * lv + 1 / 2 * (dense n p ⬝ᵥ q.H *ᵥ dense n p), ?_, ?_,
    ⟨⟨hp, h.store.okC, w2⟩, rfl, w3, h.grad, h.jac⟩⟩
  · have hl : e.merits.linear { D with primal := p } = some (q.f + q.g ⬝ᵥ d0 + q.penalty * lv) := by
      unfold MeritEnv.linear
      show (D.consJac.addScaled e.merits.cons 1 1 e.merits.zeroEps e.merits.work).bind _ = _
      rw [c1, Option.bind_some, htot, Option.bind_some, hf, hpe]
      show some (q.f + D.objGrad + _) = _
      rw [h.grad]
    unfold ParEnv.forwardMerit
    rw [hl, Option.bind_some]
    show (e.hp p D.hess).bind _ = _
    rw [w1, Option.bind_some]
    show (p.dot w).bind _ = _
    rw [dot_dense hp w2, Option.bind_some, w3]
  · have : q.f + q.g ⬝ᵥ d0 + q.penalty * lv + 1 / 2 * (dense n p ⬝ᵥ q.H *ᵥ dense n p) - mixedMerit q d0 (dense n p) =
        q.penalty * (lv - q.viol d0) := by
      unfold mixedMerit LocalModel.lin
      ring
    rw [this, abs_mul, abs_of_nonneg hpen]
    exact mul_le_mul_of_nonneg_left hnear hpen

/-- the result of `search_forward` -/
structure FwdNear (q : LocalModel n m K) (sol : K → Fin n → K) (e : ParEnv K) (r0 v0 : K) (k : Nat) (s : ParState K) : Prop where
  solved : s.solved = r0 * e.increase ^ k
  dir : MixedNear q (sol r0) (sol (r0 * e.increase ^ k)) e.merits.zeroEps s.dir
  merit : |s.merit - mixedMerit q (sol r0) (sol (r0 * e.increase ^ k))| ≤ e.err q
  le : s.merit ≤ v0

theorem par_forward_near {q : LocalModel n m K} {sol : K → Fin n → K} {e : ParEnv K} (he : ParNear q sol e) (hpen : 0 ≤ q.penalty)
    (heps : 0 ≤ e.eps) (hi : e.increase ≠ 0) {r0 v0 : K} : ∀ (c j : Nat) (s : ParState K), FwdNear q sol e r0 v0 j s →
      s.radius = r0 * e.increase ^ (j + 1) → s.solves = j → MixedNear q (sol r0) (sol (r0 * e.increase ^ j)) e.merits.zeroEps s.last →
      ∃ out k, e.forward c s = some out ∧ FwdNear q sol e r0 v0 k out ∧ j ≤ k ∧ k ≤ j + c ∧
        (out.radius = r0 * e.increase ^ k ∨ out.radius = r0 * e.increase ^ (k + 1)) ∧ out.solves ≤ j + c + 1 := by
  intro c
  induction c with
  | zero =>
    intro j s h hr hs _
    exact ⟨s, j, rfl, h, le_rfl, le_rfl, Or.inr hr, by omega⟩
  | succ c ih =>
    intro j s h hr hs hl
    obtain ⟨p, p1, p2, p3⟩ := he.step s.radius s.dir.primal h.dir.store.okP.1 h.dir.store.okP.2
    obtain ⟨D, v, D1, D2, D3⟩ := par_forwardMerit_near he hpen h.dir p2
    unfold ParEnv.forward
    rw [p1, Option.bind_some, D1, Option.bind_some]
    rw [p3, hr] at D2 D3
    by_cases hlt : isLt v s.merit e.eps = true
    · rw [if_pos hlt]
      obtain ⟨L, L1, L2⟩ := mixedNear_copy D3 hl.store
      rw [L1, Option.bind_some]
      obtain ⟨out, k, o1, o2, o3, o4, o5, o6⟩ := ih (j + 1) ⟨D, L, s.radius * e.increase, v, s.radius, s.solves + 1⟩
        ⟨hr, D3, D2, le_trans (isLt_lt heps hlt).le h.le⟩ (by show s.radius * e.increase = _; rw [hr, pow_succ e.increase (j + 1)]; ring)
        (by show s.solves + 1 = _; rw [hs]) L2
      exact ⟨out, k, o1, o2, by omega, by omega, o5, by omega⟩
    · rw [if_neg hlt]
      obtain ⟨L, L1, L2⟩ := mixedNear_copy hl D3.store
      rw [L1, Option.bind_some]
      have hd : s.radius / e.increase = r0 * e.increase ^ j := by
        rw [hr, pow_succ, ← mul_assoc, mul_div_assoc, div_self hi, mul_one]
      exact ⟨_, j, rfl, ⟨hd, L2, h.merit, h.le⟩, le_rfl, by omega, Or.inl hd, by show s.solves + 2 ≤ _; omega⟩

/-- the loop of `search_backtracking` -/
theorem par_backward_near {q : LocalModel n m K} {sol : K → Fin n → K} {e : ParEnv K} (he : ParNear q sol e) (hpen : 0 ≤ q.penalty) :
    ∀ (c : Nat) (s : ParState K), DirStore n m s.dir →
      ∃ b out, e.backward (q.viol 0) c s = some (b, out) ∧
        (b = true → ∃ k, k < c ∧ SuffUpTo q e.eta (e.err q) (sol (s.radius * e.decrease ^ k)) ∧
          (∀ j < k, ¬ SuffDespite q e.eta (e.err q) (sol (s.radius * e.decrease ^ j))) ∧
          DirNear q out.dir (sol (s.radius * e.decrease ^ k)) ⟨0, 0, e.merits.zeroEps, 0⟩ ∧
          out.radius = s.radius * e.decrease ^ k ∧ out.solved = out.radius ∧
          |out.merit - q.quad (sol (s.radius * e.decrease ^ k))| ≤ e.err q ∧ out.solves = s.solves + k + 1) ∧
        (b = false → (∀ j < c, ¬ SuffDespite q e.eta (e.err q) (sol (s.radius * e.decrease ^ j))) ∧ out.solves = s.solves + c ∧
          (c = 0 → out = s) ∧
          ∀ c', c = c' + 1 → DirNear q out.dir (sol (s.radius * e.decrease ^ c')) ⟨0, 0, e.merits.zeroEps, 0⟩ ∧
            out.solved = s.radius * e.decrease ^ c') := by
  intro c
  induction c with
  | zero =>
    intro s _
    exact ⟨false, s, rfl, nofun, fun _ => ⟨fun j hj => absurd hj (by omega), rfl, fun _ => rfl, fun c' hc => absurd hc (by omega)⟩⟩
  | succ c ih =>
    intro s hs
    obtain ⟨p, p1, p2, p3⟩ := he.step s.radius s.dir.primal hs.okP.1 hs.okP.2
    obtain ⟨D, D1, D2⟩ := par_reset_near he hs p2
    rw [p3] at D2
    obtain ⟨b, v, b1, b2, b3, b4⟩ := par_sufficient_near he.merits hpen D2
    have key : e.backward (q.viol 0) (c + 1) s =
        if b = true then some (true, ⟨D, s.last, s.radius, v, s.radius, s.solves + 1⟩)
        else e.backward (q.viol 0) c ⟨D, s.last, s.radius * e.decrease, v, s.radius, s.solves + 1⟩ := by
      rw [ParEnv.backward, p1, Option.bind_some, D1, Option.bind_some, b1, Option.bind_some]
    rw [key]
    cases b with
    | true =>
      rw [if_pos rfl]
      refine ⟨true, _, rfl, fun _ => ⟨0, by omega, ?_, fun j hj => absurd hj (by omega), ?_, ?_, rfl, ?_, rfl⟩, nofun⟩
      · simpa using b3 rfl
      · simpa using D2
      · simp
      · simpa using b2
    | false =>
      rw [if_neg (by simp)]
      have shift : ∀ j, s.radius * e.decrease * e.decrease ^ j = s.radius * e.decrease ^ (j + 1) := fun j => by rw [pow_succ]; ring
      obtain ⟨b', out, o1, o2, o3⟩ := ih ⟨D, s.last, s.radius * e.decrease, v, s.radius, s.solves + 1⟩ D2.store
      simp only [shift] at o2 o3
      refine ⟨b', out, o1, fun hb => ?_, fun hb => ?_⟩
      · obtain ⟨k, k1, k2, k3, k4, k5, k6, k7, k8⟩ := o2 hb
        refine ⟨k + 1, by omega, k2, fun j hj => ?_, k4, k5, k6, k7, by omega⟩
        cases j with
        | zero => simpa using b4 rfl
        | succ j => exact k3 j (by omega)
      · obtain ⟨k1, k2, k3, k4⟩ := o3 hb
        refine ⟨fun j hj => ?_, by omega, fun h => absurd h (by omega), fun c' hc => ?_⟩
        · cases j with
          | zero => simpa using b4 rfl
          | succ j => exact k1 j (by omega)
        · obtain rfl : c = c' := by omega
          cases c with
          | zero => rw [k3 rfl]; simpa using D2
          | succ c => exact k4 c rfl

/-- the first steps of `sleqp_parametric_solver_solve` -/
theorem par_solve_near {q : LocalModel n m K} {sol : K → Fin n → K} {e : ParEnv K} (he : ParNear q sol e) (hpen : 0 ≤ q.penalty) {lp : Vec K}
    (hlp : lp.WF ∧ lp.dim = n) {D L : Dir K} (hD : DirStore n m D) (r0 : K) :
    ∃ D' b v, DirNear q D' (dense n lp) ⟨0, 0, e.merits.zeroEps, 0⟩ ∧ |v - q.quad (dense n lp)| ≤ e.err q ∧
      (b = true → SuffUpTo q e.eta (e.err q) (dense n lp)) ∧ (b = false → ¬ SuffDespite q e.eta (e.err q) (dense n lp)) ∧
      e.solve lp D L r0 = if b = true then
        (D'.copy L).bind fun l => e.forward e.resolves ⟨D', l, r0 * e.increase, v, r0, 0⟩
      else e.backtrack (q.viol 0) ⟨D', L, r0 * e.decrease, v, r0, 0⟩ := by
  obtain ⟨p, p1, p2, p3⟩ := copy_spec hlp hD.okP.2
  obtain ⟨D', D1, D2⟩ := par_reset_near he hD p2
  have hp : dense n p = dense n lp := dense_of_ents p3
  rw [hp] at D2
  obtain ⟨b, v, b1, b2, b3, b4⟩ := par_sufficient_near he.merits hpen D2
  have hv : totalViolation e.merits.numCons e.merits.cons e.merits.consLb e.merits.consUb = some (q.viol 0) := par_violation (e := { e.merits with zeroEps := 0 }) he.merits.data
  refine ⟨D', b, v, D2, b2, b3, b4, ?_⟩
  unfold ParEnv.solve
  rw [p1, Option.bind_some, D1, Option.bind_some, hv, Option.bind_some, b1, Option.bind_some]

/-! ### C79 -/

/-- C79, for any drop tolerance; `E` is the error of merit values caused by it. The search ends in one of three ways.

The step of the initial radius `r0` achieves sufficient decrease (up to the error): the new step solves the linear program for a radius `r0 · increase ^ k`,
which is the one solved last, at most one more than allowed; it lies within the new radius and its quadratic merit value is at most that returned, which is at
most that of the initial step, both up to the error.

It does not (even allowing for the error), but one of the steps for the radii `r0 · decrease ^ (k + 1)` does, and none before it clearly did: this is
the new step, with its merit value and direction (both up to the error), and the radius is its radius.

None of them clearly does: provided that the line search has been set to the current iterate, the step of the last radius is shortened so that it achieves sufficient
decrease (up to the error), or replaced by zero.

Missing: see `C79_direction_violated` and `C79_line_search_violated`. -/
theorem C79_near_partial {q : LocalModel n m K} {B : (Fin n → K) → Prop} {sol : K → Fin n → K} {e : ParEnv K} (he : ParNear q sol e)
    (hs : LpFamily q B sol) (hpen : 0 ≤ q.penalty) (heps : 0 ≤ e.eps) (hi : 1 ≤ e.increase) (hdec : 0 ≤ e.decrease) {lp : Vec K}
    (hlp : lp.WF ∧ lp.dim = n) {D L : Dir K} (hD : DirStore n m D) (hL : DirStore n m L) {r0 : K} (hr : 0 ≤ r0) (hsol : dense n lp = sol r0)
    {c : Nat} (hc : e.resolves = c + 1) {E : K} (hE : E = q.penalty * (m * (2 * e.merits.zeroEps))) :
    (SuffUpTo q e.eta E (sol r0) ∧ ∃ out k, e.solve lp D L r0 = some out ∧ k ≤ e.resolves ∧ out.solves ≤ e.resolves + 1 ∧
      out.solved = r0 * e.increase ^ k ∧ (out.dir.primal.WF ∧ out.dir.primal.dim = n) ∧ dense n out.dir.primal = sol out.solved ∧ dense n out.dir.hess = q.H *ᵥ sol out.solved ∧
      r0 ≤ out.radius ∧ out.solved ≤ out.radius ∧ (∀ i, |dense n out.dir.primal i| ≤ out.radius) ∧ B (dense n out.dir.primal) ∧
      q.quad (dense n out.dir.primal) ≤ out.merit + E ∧ out.merit ≤ q.quad (sol r0) + E) ∨
    (¬ SuffDespite q e.eta E (sol r0) ∧ ∃ out k, e.solve lp D L r0 = some out ∧ k < e.resolves ∧
      SuffUpTo q e.eta E (sol (r0 * e.decrease ^ (k + 1))) ∧ (∀ j < k, ¬ SuffDespite q e.eta E (sol (r0 * e.decrease ^ (j + 1)))) ∧
      out.radius = r0 * e.decrease ^ (k + 1) ∧ out.solved = out.radius ∧ out.solves = k + 1 ∧
      DirNear q out.dir (sol out.radius) ⟨0, 0, e.merits.zeroEps, 0⟩ ∧ |out.merit - q.quad (sol out.radius)| ≤ E ∧
      (∀ i, |sol out.radius i| ≤ out.radius)) ∨
    (¬ SuffDespite q e.eta E (sol r0) ∧ (∀ j < e.resolves, ¬ SuffDespite q e.eta E (sol (r0 * e.decrease ^ (j + 1)))) ∧
      (e.line = none → e.solve lp D L r0 = none) ∧
      ∀ l, e.line = some l → EnvNear q l.merits → l.merits.zeroEps = e.merits.zeroEps →
        (∀ p, dense n p = sol (r0 * e.decrease ^ (c + 1)) → CauchyOk l.params l.radius (l.norm p) (dense n p)) →
        l.params.cauchyTau ^ 10000 ≤ l.params.eps →
        ∃ out, e.solve lp D L r0 = some out ∧ out.solved = r0 * e.decrease ^ (c + 1) ∧ out.solves = e.resolves ∧
          ((∃ t : K, 0 < t ∧ t ≤ 1 ∧ DirNear q out.dir (t • sol out.solved) ⟨0, 0, t * e.merits.zeroEps, 0⟩ ∧
            SuffUpTo q l.params.cauchyEta E (t • sol out.solved) ∧
            (t • sol out.solved) ⬝ᵥ (t • sol out.solved) ≤ l.radius * l.radius ∧ |out.merit - q.quad (t • sol out.solved)| ≤ E) ∨
            DirFor q out.dir 0)) := by
  have hEe : e.err q = E := by rw [hE, ParEnv.err, two_mul]
  obtain ⟨D', b, v, h1, h2, h3, h4, h5⟩ := par_solve_near he hpen hlp hD (L := L) r0
  rw [hsol] at h1 h2 h3 h4
  rw [hEe] at h2 h3 h4
  cases b with
  | true =>
    left
    rw [if_pos rfl] at h5
    refine ⟨h3 rfl, ?_⟩
    obtain ⟨l, l1, l2⟩ := mixedNear_copy (mixedNear_self h1) hL
    rw [l1, Option.bind_some] at h5
    obtain ⟨out, k, o1, o2, -, o4, o5, o6⟩ := par_forward_near he hpen heps (by intro h; rw [h] at hi; linarith) (v0 := v) (r0 := r0) e.resolves 0
      ⟨D', l, r0 * e.increase, v, r0, 0⟩
      ⟨by simp, by simpa using mixedNear_self h1, by
        have : mixedMerit q (sol r0) (sol r0) = q.quad (sol r0) := by simp [mixedMerit, LocalModel.quad]
        simpa [this, hEe] using h2, le_rfl⟩ (by simp) rfl (by simpa using l2)
    have hpow : (1 : K) ≤ e.increase ^ k := one_le_pow₀ hi
    have hr0 : r0 ≤ r0 * e.increase ^ k := le_mul_of_one_le_right hr hpow
    have hle : out.solved ≤ out.radius := by
      rw [o2.solved]
      rcases o5 with h | h
      · rw [h]
      · rw [h, pow_succ, ← mul_assoc]
        exact le_mul_of_one_le_right (le_trans hr hr0) hi
    have hp : dense n out.dir.primal = sol out.solved := by rw [o2.solved]; exact o2.dir.primal
    have h0 : 0 ≤ out.solved := by rw [o2.solved]; exact le_trans hr hr0
    have hm := o2.merit
    rw [← o2.solved, hEe] at hm
    refine ⟨out, k, by rw [h5, o1], by omega, by omega, o2.solved, o2.dir.store.okP, hp, by rw [o2.solved]; exact o2.dir.hess,
      le_trans hr0 (by rw [← o2.solved]; exact hle), hle, fun i => ?_, ?_, ?_, ?_⟩
    · rw [hp]
      exact le_trans (hs.within _ h0 i) hle
    · rw [hp]
      exact hs.bounds _ h0
    · rw [hp]
      have := hs.mono hr (by rw [← o2.solved] at hr0; exact hr0 : r0 ≤ out.solved)
      have hm' := (abs_le.1 hm).1
      unfold mixedMerit at hm'
      unfold LocalModel.quad
      linarith
    · have := (abs_le.1 h2).2
      have := o2.le
      linarith
  | false =>
    right
    rw [if_neg (by simp)] at h5
    have shift : ∀ j, r0 * e.decrease * e.decrease ^ j = r0 * e.decrease ^ (j + 1) := fun j => by rw [pow_succ]; ring
    obtain ⟨b, out, k1, k2, k3⟩ := par_backward_near he hpen e.resolves ⟨D', L, r0 * e.decrease, v, r0, 0⟩ h1.store
    simp only [shift, hEe] at k2 k3
    unfold ParEnv.backtrack at h5
    rw [k1, Option.bind_some] at h5
    cases b with
    | true =>
      left
      obtain ⟨k, m1, m2, m3, m4, m5, m6, m7, m8⟩ := k2 rfl
      have h0 : 0 ≤ r0 * e.decrease ^ (k + 1) := mul_nonneg hr (pow_nonneg hdec _)
      refine ⟨h4 rfl, out, k, by rw [h5]; rfl, m1, m2, m3, m5, m6, by omega, by rw [m5]; exact m4, by rw [m5]; exact m7, ?_⟩
      rw [m5]
      exact hs.within _ h0
    | false =>
      right
      obtain ⟨m1, m2, -, m4⟩ := k3 rfl
      rw [if_neg (by simp)] at h5
      refine ⟨h4 rfl, m1, fun hl => by rw [h5, hl]; rfl, fun l hl hlq hz hok hlim => ?_⟩
      obtain ⟨a1, a2⟩ := m4 c hc
      have hprim : dense n out.dir.primal = sol (r0 * e.decrease ^ (c + 1)) := (mixedNear_self a1).primal
      have hck := hok out.dir.primal hprim
      rw [hprim] at hck
      obtain ⟨⟨D2, full, merit⟩, hrun⟩ := C43_terminates_near hlq hpen he.merits.eps a1 hck hlim
      refine ⟨{ out with dir := D2, merit := merit }, ?_, a2, by show out.solves = _; rw [m2]; omega, ?_⟩
      · rw [h5, hl, Option.bind_some]
        show (cauchyStep l.merits l.params l.radius (l.norm out.dir.primal) out.dir).bind _ = _
        rw [hrun]
        rfl
      · show (∃ t : K, 0 < t ∧ t ≤ 1 ∧ DirNear q D2 (t • sol out.solved) _ ∧ _ ∧ _ ∧ |merit - _| ≤ _) ∨ DirFor q D2 0
        rw [a2]
        rcases C43_step_near hlq hpen he.merits.eps a1 hck hrun with ⟨t, t1, t2, t3, t4, t5, t6⟩ | h
        · rw [hz, ← two_mul, ← hE] at t5 t6
          exact Or.inl ⟨t, t1, t2, t3, t5, t4, t6⟩
        · exact Or.inr h.1

/-! ### a sample: the model of `C79_stale_violated` with tolerance `10⁻⁸`, so that merit values may be wrong by `2 · 10⁻⁴` -/

/-- sample environment -/
def exParNear : ParEnv ℚ := { exStalePar with merits := { exStaleEnv 0 with zeroEps := 1 / 10 ^ 8 } }

theorem exParNearFor : ParNear exStale (fun r => ![min r 100]) exParNear :=
  ⟨⟨exStaleEnvFor, by norm_num [exParNear]⟩, exStaleFor.okG, exStaleFor.grad, exStaleFor.okJ, exStaleFor.jac, exStaleFor.hess, exStaleFor.step⟩

theorem exParNearSuff (r : ℚ) (h0 : 0 ≤ r) (h1 : r ≤ 100) : SuffDespite exStale (1 / 10) (1 / 5000) ![min r 100] ↔
    500 * (r * r) + 9 / 50000 ≤ 9 / 10 * r := by
  have hv : viol (0 + r) 0 (10 ^ 6 : ℚ) = 0 := by
    unfold viol
    exact max_eq_right (max_le (by linarith) (by linarith))
  have q0 : exStale.quad 0 = 0 := by
    have := exStale_quad 0
    rw [show (0 : Fin 1 → ℚ) = ![0] from by funext i; obtain rfl : i = 0 := Subsingleton.elim _ _; rfl, this]
    norm_num [viol]
  have l1 : exStale.lin ![r] = -r + 10 ^ 4 * viol (0 + r) 0 (10 ^ 6) := by
    simp [LocalModel.lin, LocalModel.viol, exStale, dotProduct, mulVec]
  unfold SuffDespite
  rw [min_eq_left h1, q0, exStale_quad, l1, hv, show |1 - 1 / 10| = (9 / 10 : ℚ) by norm_num [abs_of_nonneg]]
  constructor <;> intro h <;> linarith

-- the hypotheses of `C79_near_partial`: for an initial radius of 1/1000 the search for larger radii is entered
example : ∃ out, exParNear.solve ⟨1, 1, [(0, 1 / 1000)]⟩ (Dir.create 1 1) (Dir.create 1 1) (1 / 1000) = some out ∧ 1 / 1000 ≤ out.radius ∧
    out.merit ≤ exStale.quad ![min (1 / 1000) 100] + 1 / 5000 := by
  have hst : DirStore 1 1 (Dir.create 1 1 : Dir ℚ) :=
    ⟨⟨(C02_isValid_iff _).1 (by decide +kernel), rfl⟩, ⟨(C02_isValid_iff _).1 (by decide +kernel), rfl⟩,
      ⟨(C02_isValid_iff _).1 (by decide +kernel), rfl⟩⟩
  have hd : SuffDespite exStale exParNear.eta (1 / 5000) ![min (1 / 1000) 100] :=
    (exParNearSuff _ (by norm_num) (by norm_num)).2 (by norm_num)
  rcases C79_near_partial exParNearFor exStaleFamily (by norm_num [exStale]) (by norm_num [exParNear, exStalePar, ParEnv.coarse])
    (by norm_num [exParNear, exStalePar, ParEnv.coarse]) (by norm_num [exParNear, exStalePar, ParEnv.coarse]) (exVok (1 / 1000)) hst hst
    (r0 := 1 / 1000) (by norm_num) (by rw [exLineDense, min_eq_left (by norm_num)]) (c := 4) rfl (E := 1 / 5000)
    (by norm_num [exParNear, exStale]) with h | h | h
  · obtain ⟨-, out, k, a, -, -, -, -, -, -, b, -, -, -, -, c⟩ := h
    exact ⟨out, a, b, c⟩
  · exact absurd hd h.1
  · exact absurd hd h.1

end Sleqp

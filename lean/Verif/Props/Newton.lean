import Verif.Model.Newton
import Verif.Lemmas.NullProj
import Verif.Props.WorkStep
import Verif.Props.Steihaug

/-! C70: the Newton step of the equality-constrained problem. -/

namespace Sleqp
open Matrix
variable {K : Type*} [Field K] [LinearOrder K] [IsStrictOrderedRing K] {n m : Nat}

/-- the Hessian products are multiplication by `H` -/
def HessService (q : LocalModel n m K) (hp : Vec K → Vec K → Option (Vec K)) : Prop :=
  ∀ d r : Vec K, d.WF ∧ d.dim = n → ∃ h, hp d r = some h ∧ (h.WF ∧ h.dim = n) ∧ dense n h = q.H *ᵥ dense n d

/-- the gradient of the trust-region problem is that of the model at the first step -/
theorem newtonGradient_spec (q : LocalModel n m K) {hess grad mu work : Vec K} {jac : Mat K} {d1 : Fin n → K} (hh : VOk n hess)
    (hhd : dense n hess = q.H *ᵥ d1) (hg : VOk n grad) (hgq : dense n grad = q.g) (hj : jac.WF) (hjr : jac.numRows = m)
    (hjc : jac.numCols = n) (hjq : ∀ (i : Fin m) (j : Fin n), jac.value i j = q.J i j) (hm : VOk m mu) (hw : work.dim = n) :
    ∃ g, newtonGradient 0 q.penalty hess grad jac mu work = some g ∧ VOk n g ∧
      dense n g = q.H *ᵥ d1 + q.g + q.penalty • (q.Jᵀ *ᵥ dense m mu) := by
  obtain ⟨s, s1, s2, s3⟩ := addScaled_dense (r0 := work) (1 : K) 1 hh hg
  obtain ⟨p, p1, p2, p3, p4⟩ := C08_mult_vec_trans jac mu work 0 le_rfl hj hm.1 (by rw [hjr, hm.2]) (by rw [hjc, hw])
  have hp : VOk n p := ⟨p2, p3.trans hjc⟩
  have hpd : dense n p = q.Jᵀ *ᵥ dense m mu := by
    funext j
    unfold dense
    rw [p4 j (by rw [hjc]; exact j.2)]
    have e : ∑ i ∈ Finset.range jac.numRows, jac.value i j * mu.value i = (q.Jᵀ *ᵥ dense m mu) j := by
      rw [hjr, Finset.sum_range]
      exact Finset.sum_congr rfl fun i _ => by rw [hjq]; rfl
    rw [e]
    split
    · rename_i h; exact (abs_nonpos_iff.mp h).symm
    · rfl
  obtain ⟨g, g1, g2, g3⟩ := addScaled_dense (r0 := work) (1 : K) q.penalty s2 hp
  refine ⟨g, ?_, g2, ?_⟩
  · unfold newtonGradient
    rw [s1, Option.bind_some, p1, Option.bind_some, g1]
  · rw [g3, s3, one_smul, one_smul, one_smul, hhd, hgq, hpd]

/-- change of the model along a step -/
theorem eqp_add (q : LocalModel n m K) (hsym : q.Hᵀ = q.H) (mu : Fin m → K) (d v : Fin n → K) :
    q.eqp mu (d + v) = q.eqp mu d + ((q.H *ᵥ d + q.g + q.penalty • (q.Jᵀ *ᵥ mu)) ⬝ᵥ v + 1 / 2 * (v ⬝ᵥ q.H *ᵥ v)) := by
  have h1 : d ⬝ᵥ q.H *ᵥ v = (q.H *ᵥ d) ⬝ᵥ v := by
    rw [dotProduct_mulVec, ← mulVec_transpose, hsym]
  have h2 : (q.Jᵀ *ᵥ mu) ⬝ᵥ v = mu ⬝ᵥ q.J *ᵥ v := by
    rw [mulVec_transpose, dotProduct_mulVec]
  have h3 : v ⬝ᵥ q.H *ᵥ d = (q.H *ᵥ d) ⬝ᵥ v := dotProduct_comm _ _
  unfold LocalModel.eqp
  simp only [mulVec_add, dotProduct_add, add_dotProduct, smul_dotProduct, smul_eq_mul]
  rw [h1, h2, h3]
  ring

/-- the assumptions of C70 on the services: Hessian products, projection, square root, tolerances -/
structure NewtonFor (q : LocalModel n m K) (l : List WEntry) (J : Nat → Nat → K) (e : TrEnv K) : Prop where
  hp : HessService q e.hp
  proj : NullService e.proj n l J
  sqrt : ∀ x : K, 0 ≤ x → 0 ≤ e.sqrt x ∧ e.sqrt x * e.sqrt x = x
  zeroEps : e.zeroEps = 0
  work : e.work.dim = n
  relTol : 0 < e.relTol

/-- the trust-region problem of the Newton step -/
theorem NewtonFor.problem {q : LocalModel n m K} (hsym : q.Hᵀ = q.H) {l : List WEntry} {J : Nat → Nat → K} {e : TrEnv K}
    (he : NewtonFor q l J e) {grad : Vec K} (hg : VOk n grad) :
    ∃ P, (⟨dense n grad, q.H, P⟩ : TrProblem n K).Valid ∧ TrFor (⟨dense n grad, q.H, P⟩ : TrProblem n K) e grad ∧
      (∀ x, P *ᵥ x ∈ nullSpace n l.length (workMat l J)) ∧ ∀ x ∈ nullSpace n l.length (workMat l J), P *ᵥ x = x := by
  obtain ⟨P, P1, P2, P3, P4, P5⟩ := he.proj.matrix
  exact ⟨P, ⟨hsym, P1, P2⟩, ⟨hg, rfl, he.work, he.hp, P3, he.sqrt, he.zeroEps⟩, P4, P5⟩

theorem dropSmall_zero (v : K) : dropSmall 0 v = v := by
  unfold dropSmall
  split
  · rename_i h; exact (abs_nonpos_iff.mp h).symm
  · rfl

/-- along values that do not cross the bounds the violation is linear -/
theorem viol_sameSide {a b lb ub : K} (hle : lb ≤ ub) (h : SameSide a b lb ub) :
    viol b lb ub = viol a lb ub + (if ub < a then 1 else if a < lb then -1 else 0) * (b - a) := by
  unfold viol
  rcases h with ⟨h1, h2, h3, h4⟩ | ⟨h1, h2⟩ | ⟨h1, h2⟩
  · rw [if_neg (not_lt.mpr h2), if_neg (not_lt.mpr h1), zero_mul, add_zero, max_eq_right (max_le (by linarith) (by linarith)),
      max_eq_right (max_le (by linarith) (by linarith))]
  · rw [if_pos h1, max_eq_right (a := lb - b) (by linarith), max_eq_right (a := lb - a) (by linarith),
      max_eq_left (by linarith), max_eq_left (by linarith)]
    ring
  · rw [if_neg (by linarith), if_pos h1, max_eq_left (a := lb - b) (by linarith), max_eq_left (a := lb - a) (by linarith),
      max_eq_left (by linarith), max_eq_left (by linarith)]
    ring

/-- a constraint outside the working set is inactive -/
theorem WRep.active_entry {w : WSet} {l : List WEntry} (h : WRep n m w l) {i : Nat} (hi : i < m) (hs : w.consState i ≠ .inactive) :
    ∃ k, ∃ hk : k < l.length, l[k].constraint = true ∧ l[k].index = i := by
  by_contra hc
  push Not at hc
  refine hs (h.cout i hi fun e he hh => ?_).2
  obtain ⟨k, hk, rfl⟩ := List.getElem_of_mem he
  exact hc k hk hh.1 hh.2

/-- C70: the direction returned has the parts belonging to its step. The step lies in the trust region and
leads every active entry, in its linearisation, as far as the first step does. The model in which the
violation is continued linearly from the first step is at most its value there; if no inactive
constraint crosses a bound in between, the same holds for the quadratic model of the penalty function.
This is for `zero_eps = 0`; with a positive drop tolerance it fails (`C70_drop_violated`). -/
theorem C70_direction_partial {w : WSet} {l : List WEntry} (h : WRep n m w l) (ho : w.Ordered) {p : Bounds K}
    (hp : p.Sized n m) (ht : Tight p l) {it : Iterate K} (hf : it.Fits n m p) {eps : K} (h0 : 0 ≤ eps) (he : eps ≤ 1 / 5)
    {d0 : Vec K} {solve : Vec K → Option (Vec K)} (hS : MinNormService solve n l it.consJac.value) {radius : K} (hr : 0 < radius)
    {old : WorkStep K} (hod : old.init.step.dim = n) (hom : old.multipliers.dim = m) {q : LocalModel n m K} (hq : IterFor q p it)
    (hsym : q.Hᵀ = q.H) {e : TrEnv K} (hE : NewtonFor q l it.consJac.value e) {s : WorkStep K}
    (hs : workStep solve e.sqrt eps 0 radius w p it d0 old = some s) (fuel : Nat) {hess tr : Vec K} (htr : tr.WF ∧ tr.dim = n)
    {out : Dir K} (o1 : out.primal.dim = n) (o2 : out.consJac.WF ∧ out.consJac.dim = m) (o3 : out.hess.WF ∧ out.hess.dim = n) {D : Dir K}
    (hD : newtonDirection e fuel m q.penalty it.objGrad it.consJac s hess tr out = some D) :
    DirFor q D (dense n D.primal) ∧ dense n D.primal ⬝ᵥ dense n D.primal ≤ radius ^ 2 ∧
      (∀ k (hk : k < l.length), ∑ j ∈ Finset.range n, l[k].gradient it.consJac.value j * D.primal.value j =
        ∑ j ∈ Finset.range n, l[k].gradient it.consJac.value j * s.init.step.value j) ∧
      q.eqp (dense m s.multipliers) (dense n D.primal) ≤ q.eqp (dense m s.multipliers) (dense n s.init.step) ∧
      ((0 ≤ q.penalty ∧ ∀ i : Fin m, w.consState i = .inactive →
        SameSide (q.c i + (q.J *ᵥ dense n s.init.step) i) (q.c i + (q.J *ᵥ dense n D.primal) i) (q.lb i) (q.ub i)) →
        q.quad (dense n D.primal) ≤ q.quad (dense n s.init.step)) := by
  obtain ⟨s', w1, w2, w3, w4, w5, w6, w7, w8, w11, w9, w10, w12⟩ := C69_work_step h ho hp ht hf h0 he le_rfl d0 hS hE.sqrt hr hod hom
  rw [hs] at w1
  obtain rfl := Option.some.inj w1
  obtain ⟨r, d, s', a, r1, r2, r3, r4, r5, r6, r7, r8, r9, r10, -, -, r11⟩ := C69_newton_in_region h ho hp ht hf.vars.wc hf.vars.dc hf.cons.wc
    hf.cons.dc h0 he (le_refl (0 : K)) d0 old.rhs hS hE.sqrt hr hod
  rw [w2] at r1
  obtain rfl := Option.some.inj r1
  rw [w3] at r2
  obtain rfl := Option.some.inj r2
  rw [w4] at r3
  obtain rfl := Option.some.inj r3
  set d1 := dense n s.init.step with hd1
  set mu := dense m s.multipliers with hmu
  have hext : ∀ v : Fin n → K, ∃ v' : Nat → K, (∀ j : Fin n, v' j = v j) := fun v =>
    ⟨fun j => if hj : j < n then v ⟨j, hj⟩ else 0, fun j => by simp⟩
  have hjd : ∀ (x : Fin n → K) (i : Fin m), (q.J *ᵥ x) i = ∑ j : Fin n, it.consJac.value i j * x j := fun x i => by
    unfold mulVec dotProduct
    exact Finset.sum_congr rfl fun j _ => by rw [hq.J]
  suffices key : ∃ v, v ∈ nullSpace n l.length (workMat l it.consJac.value) ∧ v ⬝ᵥ v ≤ s.init.radius ^ 2 ∧
      q.eqp mu (d1 + v) ≤ q.eqp mu d1 ∧ DirFor q D (d1 + v) by
    obtain ⟨v, v1, v2, v3, v4⟩ := key
    have hDd := v4.primal
    have hval : ∀ j : Fin n, D.primal.value j = s.init.step.value j + v j := fun j => congrFun hDd j
    obtain ⟨v', hv'⟩ := hext v
    have hrow : ∀ k (hk : k < l.length) j, workMat l it.consJac.value k j = l[k].gradient it.consJac.value j := fun k hk j => by
      unfold workMat; rw [List.getElem?_eq_getElem hk]; rfl
    have hnull : ∀ k (hk : k < l.length), ∑ j ∈ Finset.range n, l[k].gradient it.consJac.value j * v' j = 0 := by
      intro k hk
      rw [Finset.sum_range, ← v1 k hk]
      exact Finset.sum_congr rfl fun j _ => by rw [hrow k hk, hv']
    obtain ⟨t1, t2⟩ := r11 v' hnull
    have hlin : ∀ k (hk : k < l.length), ∑ j ∈ Finset.range n, l[k].gradient it.consJac.value j * D.primal.value j =
        ∑ j ∈ Finset.range n, l[k].gradient it.consJac.value j * s.init.step.value j := by
      intro k hk
      rw [← add_zero (∑ j ∈ Finset.range n, l[k].gradient it.consJac.value j * s.init.step.value j), ← hnull k hk,
        ← Finset.sum_add_distrib, Finset.sum_range, Finset.sum_range]
      exact Finset.sum_congr rfl fun j _ => by rw [hval, hv', mul_add]
    rw [hDd]
    refine ⟨v4, ?_, hlin, v3, ?_⟩
    · have e1 : (d1 + v) ⬝ᵥ (d1 + v) = ∑ j ∈ Finset.range n, (s.init.step.value j + v' j) ^ 2 := by
        rw [Finset.sum_range]
        exact Finset.sum_congr rfl fun j _ => by rw [hv', sq]; rfl
      rw [e1, t1]
      refine le_trans (le_of_eq ?_) v2
      rw [Finset.sum_range]
      exact Finset.sum_congr rfl fun j _ => by rw [hv', sq]
    · rintro ⟨hpen, hside⟩
      have hv : ∀ i : Fin m, viol (q.c i + (q.J *ᵥ (d1 + v)) i) (q.lb i) (q.ub i) =
          viol (q.c i + (q.J *ᵥ d1) i) (q.lb i) (q.ub i) + mu i * ((q.J *ᵥ (d1 + v)) i - (q.J *ᵥ d1) i) := by
        intro i
        have hle : q.lb i ≤ q.ub i := by rw [← hq.lb, ← hq.ub]; exact hf.cons.le i i.2
        by_cases hi : w.consState i = .inactive
        · have hc : s.consVal.value i = q.c i + (q.J *ᵥ d1) i := by
            rw [w8 i i.2, dropSmall_zero, w6 i i.2, dropSmall_zero, hjd, Finset.sum_range, ← hq.c]
            rfl
          have hmi : mu i = if q.ub i < q.c i + (q.J *ᵥ d1) i then 1 else if q.c i + (q.J *ᵥ d1) i < q.lb i then -1 else 0 := by
            rw [hmu]
            unfold dense
            rw [w10 i, if_neg (not_not.mpr hi), hc, ← hq.lb, ← hq.ub]
            rfl
          rw [hmi, viol_sameSide hle (hside i hi), add_sub_add_left_eq_sub]
        · obtain ⟨k, hk, e1, e2⟩ := h.active_entry i.2 hi
          have e3 : (q.J *ᵥ (d1 + v)) i = (q.J *ᵥ d1) i := by
            rw [hjd, hjd]
            have hg : ∀ j, l[k].gradient it.consJac.value j = it.consJac.value i j := fun j => by
              unfold WEntry.gradient; rw [e1, e2]; simp
            have := hlin k hk
            rw [Finset.sum_range, Finset.sum_range] at this
            simp only [hg] at this
            rw [← hDd]
            exact this
          rw [e3, sub_self, mul_zero, add_zero]
      have hsum : q.viol (d1 + v) = q.viol d1 + (mu ⬝ᵥ q.J *ᵥ (d1 + v) - mu ⬝ᵥ q.J *ᵥ d1) := by
        unfold LocalModel.viol
        rw [← dotProduct_sub]
        unfold dotProduct
        rw [← Finset.sum_add_distrib]
        exact Finset.sum_congr rfl fun i _ => by rw [hv i]; rfl
      unfold LocalModel.quad LocalModel.lin
      unfold LocalModel.eqp at v3
      rw [hsum]
      linarith
  obtain ⟨hh, q1, q2, q3⟩ := hE.hp s.init.step hess ⟨r4, r5⟩
  have hgrad : VOk n it.objGrad := ⟨hf.wg, hf.dg⟩
  have hmuOk : VOk m s.multipliers := ⟨w11, w9⟩
  unfold newtonDirection at hD
  rw [q1, Option.bind_some] at hD
  simp only [hE.zeroEps] at hD
  by_cases hz : isZero s.init.radius 0 = true
  · rw [if_pos hz] at hD
    have hfirst : DirFor q ⟨s.init.step, s.slope, s.dcons, hh⟩ d1 := by
      refine ⟨⟨r4, r5⟩, w12, q2, rfl, ?_, ?_, q3⟩
      · show s.slope = _
        rw [w5, ← hq.g, Finset.sum_range]
        exact Finset.sum_congr rfl fun j _ => mul_comm _ _
      · funext i
        show s.dcons.value i = _
        rw [w6 i i.2, dropSmall_zero, hjd, Finset.sum_range]
        rfl
    obtain ⟨D', D1, D2⟩ := C62_copy hfirst o1 o2.2 o3.2
    rw [hD] at D1
    obtain rfl := Option.some.inj D1
    refine ⟨0, Submodule.zero_mem _, ?_, by rw [add_zero], by rw [add_zero]; exact D2⟩
    rw [dotProduct_zero]; exact sq_nonneg _
  · rw [if_neg hz] at hD
    obtain ⟨g, g1, g2, g3⟩ := newtonGradient_spec q (work := e.work) q2 q3 hgrad hq.g hf.wj hf.rows hf.cols hq.J hmuOk hE.work
    rw [g1, Option.bind_some] at hD
    obtain ⟨res, e1, hD⟩ := Option.bind_eq_some_iff.mp hD
    split at hD
    · exact absurd hD (by simp)
    · obtain ⟨P, hV, hT, hN, -⟩ := hE.problem hsym g2
      have hrad : 0 < s.init.radius := by
        refine lt_of_le_of_ne r9 fun hh => hz ?_
        rw [← hh]; unfold isZero; simp
      obtain ⟨st, e2, e3, e4⟩ := C48_step_partial hV hT htr hrad hE.relTol fuel e1
      obtain ⟨x, x1, x2, x3⟩ := addScaled_dense (r0 := out.primal) (1 : K) 1 st (⟨r4, r5⟩ : VOk n s.init.step)
      rw [x1, Option.bind_some] at hD
      obtain ⟨D', D1, D2⟩ := C62_reset q { out with primal := x } it.objGrad it.consJac e.hp x2 o2 o3 hgrad hq.g hf.wj hf.cols hq.J
        (fun d r hd _ => hE.hp d r hd)
      rw [hD] at D1
      obtain rfl := Option.some.inj D1
      have hx : dense n x = d1 + dense n res.step := by rw [x3, one_smul, one_smul, add_comm]
      refine ⟨dense n res.step, ?_, ?_, ?_, ?_⟩
      · rw [← e3]; exact hN _
      · rw [sq]; exact e2
      · rw [eqp_add q hsym, ← g3]
        have : (⟨dense n g, q.H, P⟩ : TrProblem n K).val (dense n res.step) ≤ 0 := e4
        unfold TrProblem.val at this
        simp only at this
        linarith
      · rw [← hx]; exact D2

/-- Cauchy-Schwarz -/
theorem dot_sq_le (x y : Fin n → K) : (x ⬝ᵥ y) ^ 2 ≤ (x ⬝ᵥ x) * (y ⬝ᵥ y) := by
  have := Finset.sum_mul_sq_le_sq_mul_sq Finset.univ x y
  simpa only [dotProduct, sq] using this

/-- C70: without limits, the direction is computed; if the step lies within the trust region, the
model is stationary at it in the null space of the active gradients, up to the tolerance.
This is for `zero_eps = 0`; a positive drop tolerance is missing. -/
theorem C70_stationary_partial {w : WSet} {l : List WEntry} (h : WRep n m w l) (ho : w.Ordered) {p : Bounds K}
    (hp : p.Sized n m) (ht : Tight p l) {it : Iterate K} (hf : it.Fits n m p) {eps : K} (h0 : 0 ≤ eps) (he : eps ≤ 1 / 5)
    {d0 : Vec K} {solve : Vec K → Option (Vec K)} (hS : MinNormService solve n l it.consJac.value) {radius : K} (hr : 0 < radius)
    {old : WorkStep K} (hod : old.init.step.dim = n) (hom : old.multipliers.dim = m) {q : LocalModel n m K} (hq : IterFor q p it)
    (hsym : q.Hᵀ = q.H) {e : TrEnv K} (hE : NewtonFor q l it.consJac.value e) (hl : NoLimit n e) {s : WorkStep K}
    (hs : workStep solve e.sqrt eps 0 radius w p it d0 old = some s) (hess : Vec K) {tr : Vec K} (htr : tr.WF ∧ tr.dim = n)
    {out : Dir K} (o1 : out.primal.dim = n) (o2 : out.consJac.WF ∧ out.consJac.dim = m) (o3 : out.hess.WF ∧ out.hess.dim = n) :
    ∃ D, newtonDirection e (n + 1) m q.penalty it.objGrad it.consJac s hess tr out = some D ∧
      (dense n D.primal ⬝ᵥ dense n D.primal = radius ^ 2 ∨
        ∀ v : Fin n → K, (∀ k (hk : k < l.length), ∑ j : Fin n, l[k].gradient it.consJac.value j * v j = 0) →
          ((q.H *ᵥ dense n D.primal + q.g + q.penalty • (q.Jᵀ *ᵥ dense m s.multipliers)) ⬝ᵥ v) ^ 2 ≤ e.relTol ^ 2 * (v ⬝ᵥ v)) := by
  obtain ⟨s', w1, w2, w3, w4, w5, w6, w7, w8, w11, w9, w10, w12⟩ := C69_work_step h ho hp ht hf h0 he le_rfl d0 hS hE.sqrt hr hod hom
  rw [hs] at w1
  obtain rfl := Option.some.inj w1
  obtain ⟨r, d, s', a, r1, r2, r3, r4, r5, r6, r7, r8, r9, r10, -, -, r11⟩ := C69_newton_in_region h ho hp ht hf.vars.wc hf.vars.dc hf.cons.wc
    hf.cons.dc h0 he (le_refl (0 : K)) d0 old.rhs hS hE.sqrt hr hod
  rw [w2] at r1
  obtain rfl := Option.some.inj r1
  rw [w3] at r2
  obtain rfl := Option.some.inj r2
  rw [w4] at r3
  obtain rfl := Option.some.inj r3
  have hrow : ∀ k (hk : k < l.length) j, workMat l it.consJac.value k j = l[k].gradient it.consJac.value j := fun k hk j => by
    unfold workMat; rw [List.getElem?_eq_getElem hk]; rfl
  -- the norm of the sum of the first step and a vector of the null space
  have hnorm : ∀ v : Fin n → K, v ∈ nullSpace n l.length (workMat l it.consJac.value) → v ⬝ᵥ v = s.init.radius ^ 2 →
      (dense n s.init.step + v) ⬝ᵥ (dense n s.init.step + v) = radius ^ 2 := by
    intro v hv hvv
    obtain ⟨hmin, -, -, -⟩ : IsMinNorm n l.length (workMat l it.consJac.value) s.rhs.value s.direction.value ∧ True ∧ True ∧ True := by
      obtain ⟨r', p1, p2, p3, -⟩ := C69_rhs h ho hp ht hf.vars.wc hf.vars.dc hf.cons.wc hf.cons.dc h0 (le_refl (0 : K)) d0 old.rhs
      rw [w2] at p1
      obtain rfl := Option.some.inj p1
      obtain ⟨d', q1, -, -, q4⟩ := hS _ p2 p3
      rw [w3] at q1
      obtain rfl := Option.some.inj q1
      exact ⟨q4, trivial, trivial, trivial⟩
    have horth : dense n s.direction ⬝ᵥ v = 0 := by
      have := hmin.orthogonal (v := fun j => if hj : j < n then v ⟨j, hj⟩ else 0) (mem_nullSpace.mp (by simpa using hv))
      rw [Finset.sum_range] at this
      simpa [dotProduct, dense] using this
    have hst : dense n s.init.step = a • dense n s.direction := by funext j; exact r10 j
    obtain ⟨s'', a', t1, -, -, -, -, t2, -, -, t4, -⟩ := C69_radius (n := n) hE.sqrt h0 he hr (d := s.direction)
      (by
        obtain ⟨r', p1, p2, p3, -⟩ := C69_rhs h ho hp ht hf.vars.wc hf.vars.dc hf.cons.wc hf.cons.dc h0 (le_refl (0 : K)) d0 old.rhs
        rw [w2] at p1
        obtain rfl := Option.some.inj p1
        obtain ⟨d', q1, q2, -, -⟩ := hS _ p2 p3
        rw [w3] at q1
        obtain rfl := Option.some.inj q1
        exact q2)
      (by
        obtain ⟨r', p1, p2, p3, -⟩ := C69_rhs h ho hp ht hf.vars.wc hf.vars.dc hf.cons.wc hf.cons.dc h0 (le_refl (0 : K)) d0 old.rhs
        rw [w2] at p1
        obtain rfl := Option.some.inj p1
        obtain ⟨d', q1, -, q2, -⟩ := hS _ p2 p3
        rw [w3] at q1
        obtain rfl := Option.some.inj q1
        exact q2) hod
    rw [w4] at t1
    obtain rfl := Option.some.inj t1
    have hss : dense n s.init.step ⬝ᵥ dense n s.init.step + s.init.radius ^ 2 = radius ^ 2 := by
      rw [← t4, Finset.sum_range]
      congr 1
      exact Finset.sum_congr rfl fun j _ => by rw [sq]; rfl
    have hsv : dense n s.init.step ⬝ᵥ v = 0 := by rw [hst, smul_dotProduct, horth, smul_zero]
    rw [add_dotProduct, dotProduct_add, dotProduct_add, dotProduct_comm v, hsv, hvv, ← hss]
    simp
  obtain ⟨hh, q1, q2, q3⟩ := hE.hp s.init.step hess ⟨r4, r5⟩
  have hgrad : VOk n it.objGrad := ⟨hf.wg, hf.dg⟩
  have hmuOk : VOk m s.multipliers := ⟨w11, w9⟩
  unfold newtonDirection
  rw [q1, Option.bind_some]
  simp only [hE.zeroEps]
  by_cases hz : isZero s.init.radius 0 = true
  · rw [if_pos hz]
    have hz0 : s.init.radius = 0 := by
      unfold isZero at hz
      rw [decide_eq_true_eq] at hz
      exact abs_nonpos_iff.mp hz
    obtain ⟨p', p1, p2, p3⟩ := copy_spec (⟨r4, r5⟩ : VOk n s.init.step) o1
    obtain ⟨c', c1, -, -⟩ := copy_spec w12 o2.2
    obtain ⟨h', h1, -, -⟩ := copy_spec q2 o3.2
    refine ⟨⟨p', s.slope, c', h'⟩, ?_, Or.inl ?_⟩
    · unfold Dir.copy
      rw [p1, Option.bind_some, c1, Option.bind_some, h1, Option.bind_some]
    · have := hnorm 0 (Submodule.zero_mem _) (by rw [dotProduct_zero, hz0]; simp)
      rw [add_zero] at this
      show dense n p' ⬝ᵥ dense n p' = _
      rw [dense_of_ents p3]; exact this
  · rw [if_neg hz]
    obtain ⟨g, g1, g2, g3⟩ := newtonGradient_spec q (work := e.work) q2 q3 hgrad hq.g hf.wj hf.rows hf.cols hq.J hmuOk hE.work
    rw [g1, Option.bind_some]
    obtain ⟨P, hV, hT, hN, hF⟩ := hE.problem hsym g2
    have hrad : 0 < s.init.radius := by
      refine lt_of_le_of_ne r9 fun hh => hz ?_
      rw [← hh]; unfold isZero; simp
    obtain ⟨res, hres⟩ := C48_terminates_partial hV hT htr hrad hE.relTol
    have e1 := hres (n + 1) (by omega)
    obtain ⟨st, e2, e3, e4⟩ := C48_step_partial hV hT htr hrad hE.relTol (n + 1) e1
    obtain ⟨e5, e6⟩ := C48_stationary_partial hV hT htr hrad hE.relTol hl e1
    obtain ⟨x, x1, x2, x3⟩ := addScaled_dense (r0 := out.primal) (1 : K) 1 st (⟨r4, r5⟩ : VOk n s.init.step)
    obtain ⟨D', D1, D2⟩ := C62_reset q { out with primal := x } it.objGrad it.consJac e.hp x2 o2 o3 hgrad hq.g hf.wj hf.cols hq.J
      (fun d r hd _ => hE.hp d r hd)
    have hx : dense n x = dense n s.init.step + dense n res.step := by rw [x3, one_smul, one_smul, add_comm]
    refine ⟨D', ?_, ?_⟩
    · rw [e1, Option.bind_some, e5, x1, Option.bind_some]
      exact D1
    · have hDp : dense n D'.primal = dense n s.init.step + dense n res.step := by rw [D2.primal]; exact hx
      rw [hDp]
      rcases e6 with e6 | e6
      · exact Or.inl (hnorm _ (by rw [← e3]; exact hN _) (by rw [sq]; exact e6))
      · refine Or.inr fun v hv => ?_
        have hvN : v ∈ nullSpace n l.length (workMat l it.consJac.value) := fun k hk => by
          rw [← hv k hk]
          exact Finset.sum_congr rfl fun j _ => by rw [hrow k hk]
        set G := q.H *ᵥ (dense n s.init.step + dense n res.step) + q.g + q.penalty • (q.Jᵀ *ᵥ dense m s.multipliers) with hG
        have hGe : dense n g + q.H *ᵥ dense n res.step = G := by
          rw [g3, hG, mulVec_add]
          funext j
          simp only [Pi.add_apply]
          ring
        have hPG : (P *ᵥ G) ⬝ᵥ (P *ᵥ G) < e.relTol * e.relTol := by rw [← hGe]; exact e6
        have h1 : G ⬝ᵥ v = (P *ᵥ G) ⬝ᵥ v := by
          conv_lhs => rw [← hF v hvN, dotProduct_mulVec, ← mulVec_transpose]
          have : Pᵀ = P := hV.projSymm
          rw [this]
        rw [h1]
        refine le_trans (dot_sq_le _ _) ?_
        rw [sq]
        exact mul_le_mul_of_nonneg_right hPG.le (Finset.sum_nonneg fun j _ => mul_self_nonneg _)

/-- C70: the multipliers of the Hessian are the estimated ones, plus the penalty for every violated
constraint (with the sign of the violation). -/
theorem C70_multipliers {c lb ub : Vec K} (hb : Boxed m c lb ub) {active : Nat → Bool} {r0 mu dual : Vec K} (hr : r0.dim = m)
    (hm : violatedMultipliers active m c lb ub r0 = some mu) (hd : dual.WF ∧ dual.dim = m) (penalty : K) {zeroEps : K}
    (hz : 0 ≤ zeroEps) (out : Vec K) :
    ∃ r, addViolatedMultipliers zeroEps penalty dual mu out = some r ∧ r.WF ∧ r.dim = m ∧
      ∀ i, r.value i = dropSmall zeroEps (dual.value i + if active i then 0 else if ub.value i < c.value i then penalty
        else if c.value i < lb.value i then -penalty else 0) := by
  obtain ⟨mu', m1, m2, m3, m4⟩ := C13_multipliers hb active r0 hr
  rw [hm] at m1
  obtain rfl := Option.some.inj m1
  obtain ⟨r, r1, r2, r3, r4⟩ := C03_add_scaled dual mu out 1 penalty zeroEps hd.1 m2 (hd.2.trans m3.symm) hz
  refine ⟨r, r1, r2, r3.trans hd.2, fun i => ?_⟩
  have e : 1 * dual.value i + penalty * mu.value i = dual.value i + if active i then 0 else if ub.value i < c.value i then penalty
      else if c.value i < lb.value i then -penalty else 0 := by
    rw [m4 i, one_mul]
    split <;> [skip; split <;> [skip; split]] <;> ring
  rw [r4 i, e]
  rfl

/-- C70: the value logged for a direction is the quadratic model with the violation of the first step;
for the first step itself it is the quadratic model of the penalty function. -/
theorem C70_objective {q : LocalModel n m K} {p : Bounds K} {c : Vec K} (hb : Boxed m c p.consLb p.consUb) {d1 : Fin n → K}
    (hc : dense m c = q.c + q.J *ᵥ d1) (hlb : dense m p.consLb = q.lb) (hub : dense m p.consUb = q.ub) {D : Dir K} {d : Fin n → K}
    (hD : DirFor q D d) :
    newtonObjective p m q.f q.penalty c D = some (q.f + q.penalty * q.viol d1 + q.g ⬝ᵥ d + 1 / 2 * (d ⬝ᵥ q.H *ᵥ d)) := by
  unfold newtonObjective
  rw [C69_offset hb, Option.bind_some, dot_dense hD.okP hD.okH, hD.primal, hD.hess, hD.grad]
  have : ∑ i ∈ Finset.range m, viol (c.value i) (p.consLb.value i) (p.consUb.value i) = q.viol d1 := by
    unfold LocalModel.viol
    rw [Finset.sum_range]
    refine Finset.sum_congr rfl fun i _ => ?_
    rw [← hlb, ← hub]
    have h1 := congrFun hc i
    unfold dense at h1 ⊢
    rw [h1]
    rfl
  rw [this]
  rfl

/-! ### an instance: two variables, one active constraint with gradient `(1, 0)`, identity as Hessian -/

/-- the Jacobian `(1 0)` -/
def exNewtonJac : Mat ℝ := ⟨1, 2, 1, 1, fun j => if j = 0 then 0 else 1, fun _ => 0, fun _ => 1⟩

/-- minimum-norm solutions, projections and Hessian products -/
noncomputable def exNewtonEnv : TrEnv ℝ :=
  ⟨fun d _ => some d, fun d _ => some ⟨2, 1, [(1, d.value 1)]⟩, Real.sqrt, 0, 1 / 100, -1, fun _ => false, ⟨2, 0, []⟩⟩

/-- objective gradient `(0, 1)`, constraint value `2` with bounds `[-10, 0]` -/
noncomputable def exNewtonModel : LocalModel 2 1 ℝ := ⟨0, ![0, 1], ![2], !![1, 0], 1, ![-10], ![0], 5⟩

/-- the iterate zero -/
noncomputable def exNewtonIter : Iterate ℝ :=
  ⟨⟨2, 0, []⟩, 0, ⟨2, 1, [(1, 1)]⟩, ⟨1, 1, [(0, 2)]⟩, exNewtonJac, ⟨1, 0, []⟩, ⟨2, 0, []⟩⟩

/-- bounds of the instance -/
noncomputable def exNewtonBounds : Bounds ℝ :=
  ⟨⟨2, 2, [(0, -10), (1, -10)]⟩, ⟨2, 2, [(0, 10), (1, 10)]⟩, ⟨1, 1, [(0, -10)]⟩, ⟨1, 0, []⟩⟩

theorem exJac_val : exNewtonJac.value 0 0 = 1 ∧ exNewtonJac.value 0 1 = 0 := by
  constructor <;> simp [exNewtonJac, Mat.value, Mat.col, valAt, at?, orZero]

theorem exNewtonMin : MinNormService (fun r => some (⟨2, r.cap, r.ents⟩ : Vec ℝ)) 2 [⟨true, 0, .upper⟩] exNewtonJac.value := by
  intro rhs hr hd
  have h1 : rhs.value 1 = 0 := by
    have : at? rhs.ents 1 = none := at?_none_of_forall fun e he hh => by
      have := hr.lt_dim e he
      simp at hd
      omega
    unfold Vec.value valAt
    rw [this]; rfl
  refine ⟨_, rfl, ⟨hr.srt, fun e he => ?_, hr.le_cap⟩, rfl, ?_, ?_⟩
  · have := hr.lt_dim e he
    simp at hd
    show e.1 < 2
    omega
  · intro k hk
    obtain rfl : k = 0 := by simp at hk; omega
    simp [workMat, WEntry.gradient, Finset.sum_range_succ, exJac_val]
    rfl
  · intro y hy
    have := hy 0 (by simp)
    simp [workMat, WEntry.gradient, Finset.sum_range_succ, exJac_val] at this
    have e0 : (⟨2, rhs.cap, rhs.ents⟩ : Vec ℝ).value 0 = rhs.value 0 := rfl
    have e1 : (⟨2, rhs.cap, rhs.ents⟩ : Vec ℝ).value 1 = rhs.value 1 := rfl
    simp only [Finset.sum_range_succ, Finset.sum_range_zero, e0, e1, h1, this]
    nlinarith [sq_nonneg (y 1)]

theorem exNewtonFor : NewtonFor exNewtonModel [⟨true, 0, .upper⟩] exNewtonJac.value exNewtonEnv := by
  refine ⟨fun d r hd => ⟨d, rfl, hd, by simp [exNewtonModel]⟩, fun d r hd hdd => ?_, real_sqrt_spec, rfl, rfl, ?_⟩
  · have e0 : (⟨2, 1, [(1, d.value 1)]⟩ : Vec ℝ).value 0 = 0 := by simp [Vec.value, valAt, at?, orZero]
    have e1 : (⟨2, 1, [(1, d.value 1)]⟩ : Vec ℝ).value 1 = d.value 1 := by simp [Vec.value, valAt, at?, orZero]
    refine ⟨_, rfl, ⟨List.pairwise_singleton _ _, by simp, by simp⟩, rfl, ?_, ?_⟩
    · intro k hk
      obtain rfl : k = 0 := by simp at hk; omega
      simp [workMat, WEntry.gradient, Finset.sum_range_succ, exJac_val, e0, e1]
    · intro z hz
      have := hz 0 (by simp)
      simp [workMat, WEntry.gradient, Finset.sum_range_succ, exJac_val] at this
      simp only [Finset.sum_range_succ, Finset.sum_range_zero, e0, e1, this]
      nlinarith [sq_nonneg (d.value 1 - z 1)]
  · show (0 : ℝ) < 1 / 100
    norm_num

theorem exNewtonHyps : exNewtonBounds.Sized 2 1 ∧ Tight exNewtonBounds [⟨true, 0, .upper⟩] ∧ exNewtonIter.Fits 2 1 exNewtonBounds ∧
    IterFor exNewtonModel exNewtonBounds exNewtonIter := by
  have wf0 : ∀ k c, (⟨k, c, []⟩ : Vec ℝ).WF := fun k c => ⟨List.Pairwise.nil, by simp, by simp⟩
  have wf1 : ∀ k i (v : ℝ), i < k → (⟨k, 1, [(i, v)]⟩ : Vec ℝ).WF := fun k i v hi =>
    ⟨List.pairwise_singleton _ _, by simpa using hi, by simp⟩
  have wf2 : ∀ v v' : ℝ, (⟨2, 2, [(0, v), (1, v')]⟩ : Vec ℝ).WF := fun v v' => ⟨by simp [Srt], by simp, by simp⟩
  have hp : exNewtonBounds.Sized 2 1 := ⟨wf2 _ _, wf2 _ _, wf1 _ _ _ (by omega), wf0 _ _, rfl, rfl, rfl, rfl⟩
  have ht : Tight exNewtonBounds [⟨true, 0, .upper⟩] := by
    intro e he hs
    rw [List.mem_singleton] at he
    rw [he] at hs
    exact absurd hs (by simp)
  have hj : exNewtonJac.WF := by
    refine ⟨rfl, ?_, rfl, le_rfl, ?_, ?_⟩
    · intro j _; simp only [exNewtonJac]; split <;> simp
    · intro j hj
      have : j = 0 ∨ j = 1 := by simp [exNewtonJac] at hj; omega
      rcases this with rfl | rfl <;> simp [exNewtonJac, Mat.col, Srt]
    · intro j hj
      have : j = 0 ∨ j = 1 := by simp [exNewtonJac] at hj; omega
      rcases this with rfl | rfl <;> simp [exNewtonJac, Mat.col]
  have hf : exNewtonIter.Fits 2 1 exNewtonBounds := by
    refine ⟨⟨wf1 _ _ _ (by omega), wf1 _ _ _ (by omega), wf0 _ _, rfl, rfl, rfl, ?_⟩, ⟨wf0 _ _, wf2 _ _, wf2 _ _, rfl, rfl, rfl, ?_⟩,
      wf0 _ _, rfl, wf0 _ _, rfl, wf1 _ _ _ (by omega), rfl, hj, rfl, rfl⟩
    · intro i hi
      obtain rfl : i = 0 := by omega
      simp [exNewtonBounds, Vec.value, valAt, at?, orZero]
    · intro i hi
      have : i = 0 ∨ i = 1 := by omega
      rcases this with rfl | rfl <;> norm_num [exNewtonBounds, Vec.value, valAt, at?, orZero]
  have hq : IterFor exNewtonModel exNewtonBounds exNewtonIter := by
    refine ⟨?_, ?_, ?_, ?_, ?_⟩
    · funext j; fin_cases j <;> simp [dense, exNewtonIter, exNewtonModel, Vec.value, valAt, at?, orZero]
    · funext j; fin_cases j; simp [dense, exNewtonIter, exNewtonModel, Vec.value, valAt, at?, orZero]
    · intro i j; fin_cases i; fin_cases j <;> simp [exNewtonIter, exNewtonModel, exJac_val]
    · funext j; fin_cases j; simp [dense, exNewtonBounds, exNewtonModel, Vec.value, valAt, at?, orZero]
    · funext j; fin_cases j; simp [dense, exNewtonBounds, exNewtonModel, Vec.value, valAt, at?, orZero]
  exact ⟨hp, ht, hf, hq⟩

/-- the hypotheses of `C70_stationary_partial` and `C70_direction_partial` hold -/
example : ∃ (w : WSet) (s : WorkStep ℝ) (D : Dir ℝ), WRep 2 1 w [⟨true, 0, .upper⟩] ∧
    newtonDirection exNewtonEnv 3 1 5 exNewtonIter.objGrad exNewtonJac s ⟨2, 0, []⟩ ⟨2, 0, []⟩ (Dir.create 2 1) = some D ∧
    dense 2 D.primal ⬝ᵥ dense 2 D.primal ≤ 1 := by
  obtain ⟨w, -, h⟩ := wrep_addCons (wrep_create 2 1 fun _ => 0) (i := 0) (st := .upper) (by omega) (by simp) (by decide)
  have ho : w.Ordered := by
    have hsz : w.size = 1 := h.size
    intro k k' h1 h2
    omega
  obtain ⟨hp, ht, hf, hq⟩ := exNewtonHyps
  have wf0 : ∀ k c, (⟨k, c, []⟩ : Vec ℝ).WF := fun k c => ⟨List.Pairwise.nil, by simp, by simp⟩
  obtain ⟨s, hs, -⟩ := C69_work_step h ho hp ht hf (eps := 1 / 10) (by norm_num) (by norm_num) le_rfl ⟨2, 0, []⟩ exNewtonMin
    real_sqrt_spec (radius := 1) one_pos (old := ⟨⟨0, 0, []⟩, ⟨0, 0, []⟩, ⟨⟨2, 0, []⟩, 0, false⟩, 0, ⟨1, 0, []⟩, ⟨1, 0, []⟩, ⟨1, 0, []⟩⟩) rfl rfl
  have hsym : exNewtonModel.Hᵀ = exNewtonModel.H := by simp [exNewtonModel]
  obtain ⟨D, hD, -⟩ := C70_stationary_partial h ho hp ht hf (eps := 1 / 10) (by norm_num) (by norm_num) exNewtonMin one_pos rfl rfl hq hsym
    exNewtonFor ⟨Or.inl rfl, fun _ => rfl⟩ hs ⟨2, 0, []⟩ (tr := ⟨2, 0, []⟩) ⟨wf0 _ _, rfl⟩ (out := Dir.create 2 1) rfl ⟨wf0 _ _, rfl⟩ ⟨wf0 _ _, rfl⟩
  refine ⟨w, s, D, h, hD, ?_⟩
  have := (C70_direction_partial h ho hp ht hf (eps := 1 / 10) (by norm_num) (by norm_num) exNewtonMin one_pos rfl rfl hq hsym
    exNewtonFor hs 3 (hess := ⟨2, 0, []⟩) (tr := ⟨2, 0, []⟩) ⟨wf0 _ _, rfl⟩ (out := Dir.create 2 1) rfl ⟨wf0 _ _, rfl⟩ ⟨wf0 _ _, rfl⟩ hD).2.1
  simpa using this

end Sleqp

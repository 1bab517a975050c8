import Verif.Spec.TrialEps
import Verif.Props.TrialPoint
import Verif.Props.CauchyLsEps

/-! C77 for any drop tolerance. -/

namespace Sleqp
open Finset Matrix
variable {K : Type*} [Field K] [LinearOrder K] [IsStrictOrderedRing K]
variable {e : LpEnv K} {J0 : Nat → Nat → K} {s0 : CauchyLp K} {H : CauchyDir K → Matrix (Fin e.numVars) (Fin e.numVars) K} {c : TrialCalls K}
variable {s : TrialSettings K} {t t' : TrialSolver K} {out : Vec K} {o : TrialPt K}

/-! ### lemmas -/

theorem dropSmall_near {z : K} (hz : 0 ≤ z) (v : K) : |dropSmall z v - v| ≤ z := drop_near hz

/-- projection onto an interval does not lead away from its points -/
theorem clip_near {a b l u : K} (h1 : l ≤ a) (h2 : a ≤ u) : |min (max b l) u - a| ≤ |b - a| := by
  have n0 := abs_nonneg (b - a)
  obtain ⟨n1, n2⟩ := abs_le.mp (le_refl |b - a|)
  rw [abs_le]
  constructor
  · rw [le_sub_iff_add_le, le_min_iff]
    exact ⟨le_max_of_le_left (by linarith), by linarith⟩
  · rw [sub_le_iff_le_add]
    refine min_le_of_left_le (max_le (by linarith) (by linarith))

theorem envNear_model (hb : LpBounds e) {it : Iterate K} (hit : LpIterate e it) (hz : 0 ≤ e.zeroEps) (H : Matrix (Fin e.numVars) (Fin e.numVars) K)
    {t : CauchyDir K} {J' : Mat K} (ht : t.iterate = { it with consJac := J' }) (work : Vec K) : EnvNear (e.model it H t.penalty) (t.merits e work) where
  data :=
    { num := rfl
      f := by show t.iterate.objVal = it.objVal; rw [ht]
      okC := by show t.iterate.consVal.WF ∧ t.iterate.consVal.dim = _; rw [ht]; exact hit.consVal
      okL := ⟨hb.sized.wcl, hb.sized.dcl⟩
      okU := ⟨hb.sized.wcu, hb.sized.dcu⟩
      c := by show dense _ t.iterate.consVal = _; rw [ht]; rfl
      lb := rfl
      ub := rfl
      le := fun i => (hb.cons i i.isLt).2.2
      pen := rfl
      eps := rfl }
  eps := hz

theorem sum_mul_near {n : Nat} {a d d' : Fin n → K} {δ : K} (h : ∀ j, |d j - d' j| ≤ δ) : |∑ j, a j * d j - ∑ j, a j * d' j| ≤ (∑ j, |a j|) * δ := by
  rw [← sum_sub_distrib, sum_mul]
  refine (abs_sum_le_sum_abs _ _).trans (sum_le_sum fun j _ => ?_)
  rw [← mul_sub, abs_mul]
  exact mul_le_mul_of_nonneg_left (h j) (abs_nonneg _)

/-- the linear model changes little when the step does -/
theorem lin_near {n m : Nat} (q : LocalModel n m K) (hq : 0 ≤ q.penalty) {d d' : Fin n → K} {δ : K} (h : ∀ j, |d j - d' j| ≤ δ) :
    |q.lin d - q.lin d'| ≤ q.linErr δ := by
  have h1 : |q.g ⬝ᵥ d - q.g ⬝ᵥ d'| ≤ (∑ j, |q.g j|) * δ := sum_mul_near h
  have h2 : |q.viol d - q.viol d'| ≤ (∑ i, ∑ j, |q.J i j|) * δ := by
    unfold LocalModel.viol
    rw [← sum_sub_distrib, sum_mul]
    refine (abs_sum_le_sum_abs _ _).trans (sum_le_sum fun i _ => ?_)
    refine (viol_lipschitz _ _ _ _).trans ?_
    rw [add_sub_add_left_eq_sub]
    exact sum_mul_near h
  have h3 : q.lin d - q.lin d' = (q.g ⬝ᵥ d - q.g ⬝ᵥ d') + q.penalty * (q.viol d - q.viol d') := by unfold LocalModel.lin; ring
  rw [h3]
  refine (abs_add_le _ _).trans (add_le_add h1 ?_)
  rw [abs_mul, abs_of_nonneg hq]
  exact mul_le_mul_of_nonneg_left h2 hq

/-- a step which increases the linear model by at most `L` does so when shortened -/
theorem lin_smul_near {n m : Nat} (q : LocalModel n m K) (hq : 0 ≤ q.penalty) {d : Fin n → K} {τ L : K} (h0 : 0 ≤ τ) (h1 : τ ≤ 1) (hL : 0 ≤ L)
    (h : q.lin d ≤ q.quad 0 + L) : q.lin (τ • d) ≤ q.quad 0 + L := by
  have hv := mul_le_mul_of_nonneg_left (model_viol_convex q d h0 h1) hq
  have h2 := mul_le_mul_of_nonneg_left h h0
  have h3 := mul_le_of_le_one_left hL h1
  rw [quad_zero] at *
  unfold LocalModel.lin at *
  rw [dotProduct_smul, smul_eq_mul]
  nlinarith

theorem dirFor_near {n m : Nat} {q : LocalModel n m K} {D : Dir K} {d : Fin n → K} (h : DirFor q D d) {δ : K} (hδ : 0 ≤ δ) : DirNear q D d ⟨0, 0, δ, 0⟩ :=
  ⟨h.okP, h.okC, h.okH, fun i => by rw [h.primal, sub_self, abs_zero], by rw [h.grad, sub_self, abs_zero], fun i => by rw [h.jac, sub_self, abs_zero]; exact hδ,
    fun i => by rw [h.hess, sub_self, abs_zero]⟩

theorem dirNear_mono {n m : Nat} {q : LocalModel n m K} {D : Dir K} {d : Fin n → K} {δ δ' : K} (h : DirNear q D d ⟨0, 0, δ, 0⟩) (hδ : δ ≤ δ') :
    DirNear q D d ⟨0, 0, δ', 0⟩ :=
  ⟨h.okP, h.okC, h.okH, h.primal, h.grad, fun i => (h.jac i).trans hδ, h.hess⟩

/-- what is known of the Cauchy step: `p` is the minimiser of the linear model -/
structure LpStepNear (e : LpEnv K) (H : CauchyDir K → Matrix (Fin e.numVars) (Fin e.numVars) K) (s : TrialSettings K) (t t' : TrialSolver K) (p : Nat → K)
    (τ : K) : Prop where
  rest : t' = { t with cd := t'.cd, cauchy := t'.cauchy }
  same : ∃ J', t'.cd.iterate = { t.cd.iterate with consJac := J' }
  pos : 0 < t'.cd.penalty
  zero : (e.model t.cd.iterate (H t'.cd) t'.cd.penalty).quad 0 = t'.cd.merit
  opt : OptStep e t.cd.iterate t.cd.radius (some t.cd.iterate.objGrad) (if t'.cd.performedReset then t.cd.penalty else t'.cd.penalty) p
  descent : t'.cd.performedReset = false → (e.model t.cd.iterate (H t'.cd) t'.cd.penalty).lin (fun j => p j) ≤ (e.model t.cd.iterate (H t'.cd) t'.cd.penalty).quad 0
  nonneg : 0 ≤ τ
  le : τ ≤ 1
  simple : s.quadratic = false → τ = 1
  near : DirNear (e.model t.cd.iterate (H t'.cd) t'.cd.penalty) t'.cauchy (τ • fun j : Fin e.numVars => dropSmall e.zeroEps (p j)) ⟨0, 0, e.zeroEps, 0⟩
  trust : s.quadratic = true → (τ • fun j : Fin e.numVars => dropSmall e.zeroEps (p j)) ⬝ᵥ (τ • fun j : Fin e.numVars => dropSmall e.zeroEps (p j)) ≤
    t.trustRadius * t.trustRadius
  decrease : s.quadratic = true → τ = 0 ∨
    s.ls.cauchyEta * ((e.model t.cd.iterate (H t'.cd) t'.cd.penalty).quad 0 -
        (e.model t.cd.iterate (H t'.cd) t'.cd.penalty).lin (τ • fun j : Fin e.numVars => dropSmall e.zeroEps (p j))) ≤
      (e.model t.cd.iterate (H t'.cd) t'.cd.penalty).quad 0 -
        (e.model t.cd.iterate (H t'.cd) t'.cd.penalty).quad (τ • fun j : Fin e.numVars => dropSmall e.zeroEps (p j)) +
        |1 - s.ls.cauchyEta| * (t'.cd.penalty * (e.numCons * (e.zeroEps + e.zeroEps)))

theorem direction_near (hb : LpBounds e) (hnf : NoFixed e) (hz : 0 ≤ e.zeroEps) (hc : c.Ok e H) (hs : s.Ok) (ht : t.Ok e J0 s0)
    (hfin : FinLin e t.cd.iterate t.cd.radius) {full : Bool} {mv : Option K} (h : t.cauchyDirection e c s = some (t', full, mv)) :
    ∃ p τ, LpStepNear e H s t t' p τ := by
  unfold TrialSolver.cauchyDirection at h
  obtain ⟨⟨cd, b⟩, h1, h⟩ := Option.bind_eq_some_iff.mp h
  dsimp only at h
  obtain ⟨P, h2, h⟩ := Option.bind_eq_some_iff.mp h
  obtain ⟨D, h3, h⟩ := Option.bind_eq_some_iff.mp h
  obtain ⟨i1, i2, i3, i4⟩ := ht.cd.iterate
  obtain ⟨⟨p, hp⟩, hpos, hm, ⟨J', j1, j2⟩, hat⟩ := C76_direction_partial hb hnf hc.lp ht.cd h1
  have hd0 : dense e.numVars cd.step = fun j : Fin e.numVars => dropSmall e.zeroEps (p j) := funext fun j => hp.step.2.2 j j.isLt
  obtain ⟨P', p1, p2, p3⟩ := copy_spec (v := cd.step) ⟨hp.step.1, hp.step.2.1⟩ ht.cauchy.1
  obtain rfl : P' = P := by rw [h2] at p1; injection p1 with p1; exact p1.symm
  have hP : dense e.numVars P' = fun j : Fin e.numVars => dropSmall e.zeroEps (p j) := (dense_of_ents p3).trans hd0
  have henv : ∀ work, EnvNear (e.model t.cd.iterate (H cd) cd.penalty) (cd.merits e work) := fun work => envNear_model hb i1 hz (H cd) j1 work
  have hjg : cd.iterate.objGrad = t.cd.iterate.objGrad := by rw [j1]
  have hjc : cd.iterate.consJac = J' := by rw [j1]
  obtain ⟨D', r1, r2⟩ := reset_near (e.model t.cd.iterate (H cd) cd.penalty) { t.cauchy with primal := P' } cd.iterate.objGrad cd.iterate.consJac (c.hess cd) hz p2
    ht.cauchy.2.1 ht.cauchy.2.2 (by rw [hjg]; exact ht.cd.grad) (by rw [hjg]; rfl) (by rw [hjc]; exact j2.wf) (by rw [hjc]; exact j2.cols)
    (fun i j => by rw [hjc]; exact sameMat_value j2 j.isLt i) (fun d r hd hr => hc.hess cd d r hd hr)
  obtain rfl : D' = D := by rw [h3] at r1; injection r1 with r1; exact r1.symm
  change DirNear _ D' (dense e.numVars P') _ at r2
  rw [hP] at r2
  have hzero : (e.model t.cd.iterate (H cd) cd.penalty).quad 0 = cd.merit := model_zero hb i1 (H cd) hm
  have hdesc : cd.performedReset = false → (e.model t.cd.iterate (H cd) cd.penalty).lin (fun j : Fin e.numVars => p j) ≤
      (e.model t.cd.iterate (H cd) cd.penalty).quad 0 := by
    intro hr
    have hopt := hp.opt
    rw [hr, if_neg (by decide)] at hopt
    have h4 := hopt.2 _ (inRegion_zero ht.cd.iterate.1 ht.cd.iterate.2.1)
    rw [meritFunc_lin hb i1] at hm
    injection hm with hm
    have h5 : linModel e t.cd.iterate (some t.cd.iterate.objGrad) cd.penalty (fun _ => 0) = cd.penalty * linViol e t.cd.iterate fun _ => 0 := by
      unfold linModel gradPart; simp
    rw [hzero, model_lin _ _ (hfin p hp.opt.1)]
    linarith
  by_cases hquad : s.quadratic = true
  · rw [if_pos hquad] at h
    obtain ⟨⟨C, f, m⟩, h4, h⟩ := Option.map_eq_some_iff.mp h
    injection h with h5 h6; injection h6 with h6 h7
    subst h5 h6 h7
    obtain ⟨n1, n2⟩ := hc.norm D'.primal r2.okP
    have hPr : dense e.numVars D'.primal = fun j : Fin e.numVars => dropSmall e.zeroEps (p j) :=
      funext fun i => sub_eq_zero.1 (abs_nonpos_iff.1 (r2.primal i))
    rw [hPr] at n2
    have hok : CauchyOk s.ls t.trustRadius (c.norm D'.primal) (fun j : Fin e.numVars => dropSmall e.zeroEps (p j)) :=
      ⟨hs.cauchyPos, hs.cauchyLe, ht.radius, n1, n2⟩
    rcases C43_step_near (henv _) hpos.le hz r2 hok h4 with ⟨τ, a1, a2, a3, a4, a5, -⟩ | ⟨b1, -⟩
    · exact ⟨p, τ, rfl, ⟨J', j1⟩, hpos, hzero, hp.opt, hdesc, a1.le, a2, fun hn => absurd hquad (by rw [hn]; decide),
        dirNear_mono a3 (mul_le_of_le_one_left hz a2), fun _ => a4, fun _ => .inr a5⟩
    · refine ⟨p, 0, rfl, ⟨J', j1⟩, hpos, hzero, hp.opt, hdesc, le_rfl, zero_le_one, fun hn => absurd hquad (by rw [hn]; decide), ?_, fun _ => ?_, fun _ => .inl rfl⟩
      · rw [zero_smul]; exact dirFor_near b1 hz
      · rw [zero_smul, zero_dotProduct]; exact mul_self_nonneg _
  · rw [if_neg hquad] at h
    injection h with h; injection h with h5 h6; injection h6 with h6 h7
    subst h5 h6 h7
    exact ⟨p, 1, rfl, ⟨J', j1⟩, hpos, hzero, hp.opt, hdesc, zero_le_one, le_rfl, fun _ => rfl, by rw [one_smul]; exact r2, fun hn => absurd hn hquad,
      fun hn => absurd hn hquad⟩

/-- C77, for any drop tolerance. Without Newton step, the trial point is reached, up to twice the tolerance, by a multiple in [0,1] of a minimiser of the linear
model in the LP trust region, from which entries not larger than the tolerance are dropped. It satisfies the bounds of the variables, and the step is in the trust
region. The predicted merit value is that of the model at this step up to an error `E` proportional to penalty parameter, number of
constraints and tolerance. It is larger than the current merit value by at most this error and the change of the linear model caused by dropping entries.
(Missing: after a reset of the penalty parameter, compare `C76_reset_violated`; fixed variables; Newton steps.) -/
theorem C77_near_partial (hb : LpBounds e) (hnf : NoFixed e) (hz : 0 ≤ e.zeroEps) (hcl : e.bounds.Clear e.numVars e.zeroEps) (hc : c.Ok e H) (hs : s.Ok)
    (ht : t.Ok e J0 s0) (hfin : FinLin e t.cd.iterate t.cd.radius) (ho : out.dim = e.numVars) (hn : (s.quadratic && s.newton) = false)
    (h : t.compute e c s out = some o) {q : LocalModel e.numVars e.numCons K} (hq : q = e.model t.cd.iterate (H o.solver.cd) o.solver.cd.penalty)
    {E : K} (hE : E = q.penalty * (e.numCons * (2 * e.zeroEps))) :
    ∃ (p : Nat → K) (τ : K) (d : Fin e.numVars → K),
      OptStep e t.cd.iterate t.cd.radius (some t.cd.iterate.objGrad) (if o.solver.cd.performedReset then t.cd.penalty else o.solver.cd.penalty) p ∧
      0 ≤ τ ∧ τ ≤ 1 ∧ (d = τ • fun j : Fin e.numVars => if |p j| ≤ e.zeroEps then 0 else p j) ∧ (s.quadratic = false → τ = 1) ∧
      DirNear q o.solver.trial d ⟨0, 0, e.zeroEps, 0⟩ ∧
      (∀ j : Fin e.numVars, |o.point.value j - (t.cd.iterate.primal.value j + d j)| ≤ 2 * e.zeroEps ∧ e.bounds.varsLb.value j ≤ o.point.value j ∧
        o.point.value j ≤ e.bounds.varsUb.value j) ∧
      (∀ j, |d j| ≤ t.cd.radius) ∧ (s.quadratic = true → d ⬝ᵥ d ≤ t.trustRadius * t.trustRadius) ∧
      |o.merit - (if s.quadratic then q.quad d else q.lin d)| ≤ E ∧ q.quad 0 = o.solver.cd.merit ∧
      (o.solver.cd.performedReset = false → o.merit ≤ o.solver.cd.merit +
        (if s.quadratic then s.ls.cauchyEta * q.linErr e.zeroEps + |1 - s.ls.cauchyEta| * E else q.linErr e.zeroEps) + E) ∧ o.failed = false := by
  subst hq
  unfold TrialSolver.compute at h
  rw [hn, if_neg (by decide)] at h
  unfold TrialSolver.simple at h
  obtain ⟨⟨t', full, mv⟩, h1, h⟩ := Option.bind_eq_some_iff.mp h
  dsimp only at h
  obtain ⟨lin, h2, h⟩ := Option.bind_eq_some_iff.mp h
  obtain ⟨merit, h3, h⟩ := Option.bind_eq_some_iff.mp h
  obtain ⟨T, h4, h⟩ := Option.bind_eq_some_iff.mp h
  obtain ⟨x, h5, h⟩ := Option.map_eq_some_iff.mp h
  have hit := ht.cd.iterate.1
  obtain ⟨p, τ, hd⟩ := direction_near hb hnf hz hc hs ht hfin h1
  obtain ⟨J', j1⟩ := hd.same
  have hrest := hd.rest
  subst h
  change E = t'.cd.penalty * (e.numCons * (2 * e.zeroEps)) at hE
  have hE' : t'.cd.penalty * (e.numCons * (e.zeroEps + e.zeroEps)) = E := by rw [hE, two_mul]
  have hE0 : 0 ≤ E := by
    rw [hE]; exact mul_nonneg hd.pos.le (mul_nonneg (Nat.cast_nonneg _) (mul_nonneg zero_le_two hz))
  have henv := envNear_model hb hit hz (H t'.cd) j1 t'.combined
  obtain ⟨v, v1, v2⟩ := C63_linear_near henv hd.pos.le hd.near
  have hl : |lin - (e.model t.cd.iterate (H t'.cd) t'.cd.penalty).lin (τ • fun j : Fin e.numVars => dropSmall e.zeroEps (p j))| ≤ E := by
    obtain rfl : v = lin := by rw [h2] at v1; injection v1 with v1; exact v1.symm
    rw [zero_add] at v2
    exact v2.trans_eq hE'
  obtain ⟨T', c1, c2⟩ := copy_near hd.near (T := t'.trial) (by rw [hrest]; exact ht.trial.1) (by rw [hrest]; exact ht.trial.2.1) (by rw [hrest]; exact ht.trial.2.2)
  obtain rfl : T' = T := by rw [h4] at c1; injection c1 with c1; exact c1.symm
  have hreg := hd.opt.1
  have hbox0 := region_box (e := e) ht.cd.far hreg
  have hdrop : InBox e t.cd.iterate fun j : Fin e.numVars => dropSmall e.zeroEps (p j) := by
    intro j
    have hj : dropSmall e.zeroEps (p j) = 0 ∨ dropSmall e.zeroEps (p j) = p j := by unfold dropSmall; split <;> simp
    dsimp only
    rcases hj with hj | hj
    · rw [hj, add_zero]; exact hit.box j j.isLt
    · rw [hj]; exact hbox0 j
  have hbox := box_smul hit hdrop hd.nonneg hd.le
  have hp : t'.cd.iterate.primal = t.cd.iterate.primal := by rw [j1]
  rw [hp] at h5
  obtain ⟨x', x1, x2, x3, x4, x5⟩ := C68_trial_point hb.sized hz hcl hit.primal.1 hit.primal.2 c2.okP.1 c2.okP.2 t'.initial ho
  obtain rfl : x' = x := by rw [h5] at x1; injection x1 with x1; exact x1.symm
  have hT : dense e.numVars T'.primal = τ • fun j : Fin e.numVars => dropSmall e.zeroEps (p j) :=
    funext fun i => sub_eq_zero.1 (abs_nonpos_iff.1 (c2.primal i))
  have hm : |merit - (if s.quadratic then (e.model t.cd.iterate (H t'.cd) t'.cd.penalty).quad (τ • fun j : Fin e.numVars => dropSmall e.zeroEps (p j))
      else (e.model t.cd.iterate (H t'.cd) t'.cd.penalty).lin (τ • fun j : Fin e.numVars => dropSmall e.zeroEps (p j)))| ≤ E := by
    split at h3
    · rename_i hq
      rw [if_pos hq]
      have hP : dense e.numVars t'.cauchy.primal = τ • fun j : Fin e.numVars => dropSmall e.zeroEps (p j) :=
        funext fun i => sub_eq_zero.1 (abs_nonpos_iff.1 (hd.near.primal i))
      have hH : dense e.numVars t'.cauchy.hess = (e.model t.cd.iterate (H t'.cd) t'.cd.penalty).H *ᵥ (τ • fun j : Fin e.numVars => dropSmall e.zeroEps (p j)) :=
        funext fun i => sub_eq_zero.1 (abs_nonpos_iff.1 (hd.near.hess i))
      rw [dot_dense hd.near.okP hd.near.okH, Option.map_some, hP, hH] at h3
      injection h3 with h3
      rw [← h3]
      unfold LocalModel.quad
      rw [add_sub_add_right_eq_sub]
      exact hl
    · rename_i hq
      rw [if_neg hq]
      injection h3 with h3
      rw [← h3]
      exact hl
  refine ⟨p, τ, τ • fun j : Fin e.numVars => dropSmall e.zeroEps (p j), hd.opt, hd.nonneg, hd.le, rfl, hd.simple, c2, fun j => ⟨?_, x4 j j.isLt⟩, fun j => ?_, hd.trust,
    hm, hd.zero, fun hr => ?_, rfl⟩
  · show |x'.value j - _| ≤ _
    rw [x5 j j.isLt]
    have hv : T'.primal.value j = (τ • fun j : Fin e.numVars => dropSmall e.zeroEps (p j)) j := congrFun hT j
    rw [hv]
    have n1 := dropSmall_near hz (min (max (dropSmall e.zeroEps (t.cd.iterate.primal.value j + (τ • fun j : Fin e.numVars => dropSmall e.zeroEps (p j)) j))
      (e.bounds.varsLb.value j)) (e.bounds.varsUb.value j))
    have n2 := (clip_near (b := dropSmall e.zeroEps (t.cd.iterate.primal.value j + (τ • fun j : Fin e.numVars => dropSmall e.zeroEps (p j)) j))
      (hbox j).1 (hbox j).2).trans (dropSmall_near hz _)
    refine (abs_sub_le _ _ _).trans ((add_le_add n1 n2).trans_eq (two_mul _).symm)
  · rw [Pi.smul_apply, smul_eq_mul, abs_mul, abs_of_nonneg hd.nonneg]
    refine (mul_le_of_le_one_left (abs_nonneg _) hd.le).trans ?_
    unfold dropSmall
    split
    · rw [abs_zero]; exact (abs_nonneg _).trans (hreg j j.isLt).1
    · exact (hreg j j.isLt).1
  · show merit ≤ t'.cd.merit + _ + E
    change t'.cd.performedReset = false at hr
    have hL := lin_near (e.model t.cd.iterate (H t'.cd) t'.cd.penalty) hd.pos.le (d := fun j : Fin e.numVars => dropSmall e.zeroEps (p j))
      (d' := fun j => p j) fun j => dropSmall_near hz (p j)
    have hL0 : 0 ≤ (e.model t.cd.iterate (H t'.cd) t'.cd.penalty).linErr e.zeroEps := (abs_nonneg _).trans hL
    have hL1 : (e.model t.cd.iterate (H t'.cd) t'.cd.penalty).lin (fun j : Fin e.numVars => dropSmall e.zeroEps (p j)) ≤
        (e.model t.cd.iterate (H t'.cd) t'.cd.penalty).quad 0 + (e.model t.cd.iterate (H t'.cd) t'.cd.penalty).linErr e.zeroEps := by
      have := (abs_le.mp hL).2
      have := hd.descent hr
      linarith
    have hL2 := lin_smul_near _ hd.pos.le hd.nonneg hd.le hL0 hL1
    have hm2 := (abs_le.mp hm).2
    rw [← hd.zero]
    by_cases hquad : s.quadratic = true
    · rw [if_pos hquad] at hm2 ⊢
      have e0 := mul_nonneg (abs_nonneg (1 - s.ls.cauchyEta)) hE0
      have e1 := mul_nonneg hs.etaNonneg hL0
      rcases hd.decrease hquad with h0 | h0
      · rw [h0, zero_smul] at hm2
        linarith
      · rw [hE'] at h0
        have e2 := mul_le_mul_of_nonneg_left hL2 hs.etaNonneg
        rw [mul_add] at e2
        rw [mul_sub] at h0
        linarith
    · rw [if_neg hquad] at hm2 ⊢
      linarith

/-! ### sample: drop tolerance 1/1000 -/

def exTpEnvEps : LpEnv ℚ := { exTpEnv with zeroEps := 1/1000 }

theorem exTpEnvEps_dir : exTpDir.Ok exTpEnvEps (fun _ _ => 0) exLpState where
  cauchy := ⟨none, [], fun _ h => (by cases h), rfl, rfl⟩
  iterate := ⟨⟨⟨(C02_isValid_iff _).mp (by decide +kernel), rfl⟩, ⟨(C02_isValid_iff _).mp (by decide +kernel), rfl⟩,
    (C09_isValid_iff _ rfl (by decide)).mp (by decide +kernel), rfl, rfl, by decide +kernel, by decide +kernel, by decide +kernel⟩,
    by decide +kernel, by decide +kernel, fun h => by cases h⟩
  grad := exTpDir_ok.grad
  work := exTpDir_ok.work
  far := exTpDir_ok.far
  penalty := exTpDir_ok.penalty
  merit := exTpDir_ok.merit
  reset := rfl

theorem exTpEnvEps_calls : exTpCalls.Ok exTpEnvEps exTpHess := ⟨exTpCalls_ok.lp, exTpCalls_ok.hess, exTpCalls_ok.norm⟩

theorem exTpEnvEps_solver : exTpSolver.Ok exTpEnvEps (fun _ _ => 0) exLpState :=
  ⟨exTpEnvEps_dir, exTpSolver_ok.radius, exTpSolver_ok.cauchy, exTpSolver_ok.trial, exTpSolver_ok.newtonWork, exTpSolver_ok.multWork⟩

theorem exTpEnvEps_bounds : LpBounds exTpEnvEps := ⟨exTpEnv_bounds.inf, exTpEnv_bounds.sized, exTpEnv_bounds.vars, exTpEnv_bounds.cons⟩

theorem exTpEnvEps_clear : exTpEnvEps.bounds.Clear exTpEnvEps.numVars exTpEnvEps.zeroEps := by unfold Bounds.Clear; decide +kernel

/-- a step of length 1/2, with quadratic model but without Newton step -/
example : ∃ o, exTpSolver.compute exTpEnvEps exTpCalls { exTpSettings true false with newton := false } ⟨1, 0, []⟩ = some o ∧ o.point.value 0 = 1/2 ∧
    o.merit = -1/2 + 1/16 ∧ ∃ d : Fin exTpEnvEps.numVars → ℚ, ∀ j : Fin exTpEnvEps.numVars, |o.point.value j - (exTpDir.iterate.primal.value j + d j)| ≤ 2 * (1/1000) ∧ |d j| ≤ 1/2 := by
  have h : (exTpSolver.compute exTpEnvEps exTpCalls { exTpSettings true false with newton := false } ⟨1, 0, []⟩).map (fun o => (o.point.value 0, o.merit)) =
      some (1/2, -1/2 + 1/16) := by decide +kernel
  obtain ⟨o, h1, h2⟩ := Option.map_eq_some_iff.mp h
  injection h2 with h2 h3
  refine ⟨o, h1, h2, h3, ?_⟩
  obtain ⟨p, τ, d, -, -, -, -, -, -, k, k', -⟩ := C77_near_partial exTpEnvEps_bounds exTpEnv_noFixed (by decide +kernel) exTpEnvEps_clear exTpEnvEps_calls
    (s := { exTpSettings true false with newton := false }) (H := exTpHess)
    ⟨(exTpSettings_ok true false).cauchyPos, (exTpSettings_ok true false).cauchyLe, (exTpSettings_ok true false).etaNonneg, (exTpSettings_ok true false).lsPos,
      (exTpSettings_ok true false).lsLe, (exTpSettings_ok true false).cutoff⟩ exTpEnvEps_solver exTp_finLin rfl rfl h1 rfl rfl
  exact ⟨d, fun j => ⟨(k j).1, k' j⟩⟩

end Sleqp

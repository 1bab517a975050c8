import Verif.Spec.TrialPoint
import Verif.Props.CauchyStep
import Verif.Props.CauchyLs
import Verif.Props.Soc
import Verif.Props.TrialLs
import Verif.Props.ExactLs

/-! C77: trial points. -/

namespace Sleqp
open Finset Matrix
variable {K : Type*} [Field K] [LinearOrder K] [IsStrictOrderedRing K]
variable {e : LpEnv K} {J0 : Nat → Nat → K} {s0 : CauchyLp K} {it : Iterate K}

theorem viol_finite {inf v lb ub : K} (h : |v| < inf / 2) : viol v lb ub = violInf inf v lb ub := by
  unfold viol violInf
  obtain ⟨c1, c2⟩ := abs_lt.mp h
  split
  · rename_i h1
    have m1 : lb - v ≤ 0 := by linarith
    split
    · rename_i h2
      rw [max_eq_right (max_le m1 (by linarith)), max_eq_right (max_le le_rfl le_rfl)]
    · rw [max_assoc, max_assoc, max_eq_right (le_trans m1 (le_max_right _ _)), max_eq_right (le_max_right (v - _) 0)]
  · split
    · rename_i h2
      have m2 : v - ub ≤ 0 := by linarith
      rw [max_assoc, max_eq_right m2, max_assoc, max_eq_right (le_refl (0:K))]
    · rfl

/-- the linear model of the LP and the one of the merit function agree where the constraints are finite -/
theorem model_lin (H : Matrix (Fin e.numVars) (Fin e.numVars) K) (p : K) {d : Nat → K} (h : ∀ i < e.numCons, |it.lin e.numVars d i| < e.inf / 2) :
    (e.model it H p).lin (fun j => d j) = it.objVal + linModel e it (some it.objGrad) p d := by
  unfold LocalModel.lin LocalModel.viol linModel linViol gradPart
  have h1 : ∀ i : Fin e.numCons, (e.model it H p).c i + ((e.model it H p).J *ᵥ fun j : Fin e.numVars => d j) i = it.lin e.numVars d i := by
    intro i
    unfold Iterate.lin
    rw [Finset.sum_range]
    rfl
  have h2 : ∑ i, viol ((e.model it H p).c i + ((e.model it H p).J *ᵥ fun j : Fin e.numVars => d j) i) ((e.model it H p).lb i) ((e.model it H p).ub i) =
      ∑ i ∈ range e.numCons, violInf e.inf (it.lin e.numVars d i) (e.bounds.consLb.value i) (e.bounds.consUb.value i) := by
    rw [Finset.sum_range]
    exact sum_congr rfl fun i _ => by rw [h1]; exact viol_finite (h i i.isLt)
  have h3 : (e.model it H p).g ⬝ᵥ (fun j : Fin e.numVars => d j) = ∑ j ∈ range e.numVars, it.objGrad.value j * d j := by
    rw [Finset.sum_range]; rfl
  rw [h2, h3]
  show it.objVal + _ + p * _ = _
  rw [add_assoc]

/-- the model at the zero step is the merit value -/
theorem model_zero (hb : LpBounds e) (hit : LpIterate e it) (H : Matrix (Fin e.numVars) (Fin e.numVars) K) {p m : K}
    (h : meritFunc e.numCons e.bounds it p = some m) : (e.model it H p).quad 0 = m := by
  rw [meritFunc_lin hb hit] at h
  injection h with h
  have h1 := model_lin (e := e) (it := it) H p (d := fun _ => 0) fun i hi => by
    have : it.lin e.numVars (fun _ => 0) i = it.consVal.value i := by unfold Iterate.lin; simp
    rw [this]; exact hit.cfin i hi
  unfold LocalModel.quad
  rw [zero_dotProduct, mul_zero, add_zero]
  show (e.model it H p).lin (fun _ => 0) = m
  rw [h1, ← h]
  unfold linModel gradPart
  simp

/-- merit functions and line searches use the local model -/
theorem envFor_model (hb : LpBounds e) (hit : LpIterate e it) (hz : e.zeroEps = 0) (H : Matrix (Fin e.numVars) (Fin e.numVars) K) {t : CauchyDir K} {J' : Mat K}
    (ht : t.iterate = { it with consJac := J' }) (work : Vec K) : EnvFor (e.model it H t.penalty) (t.merits e work) where
  num := rfl
  f := by show t.iterate.objVal = it.objVal; rw [ht]
  okC := by show t.iterate.consVal.WF ∧ t.iterate.consVal.dim = _; rw [ht]; exact hit.consVal
  okL := ⟨hb.sized.wcl, hb.sized.dcl⟩
  okU := ⟨hb.sized.wcu, hb.sized.dcu⟩
  c := by show dense _ t.iterate.consVal = _; rw [ht]; rfl
  lb := rfl
  ub := rfl
  le := fun i => (hb.cons i i.isLt).2.2
  pen := rfl
  eps := hz

theorem sameMat_value {J J' : Mat K} {n m : Nat} (h : SameMat n m J J') {j : Nat} (hj : j < n) (i : Nat) : J'.value i j = J.value i j := by
  unfold Mat.value; rw [h.col j hj]

theorem dropSmall_zero (v : K) : dropSmall 0 v = v := by
  unfold dropSmall
  split
  · rename_i h
    exact (abs_eq_zero.mp (le_antisymm h (abs_nonneg _))).symm
  · rfl

/-- steps in the region satisfy the bounds -/
theorem region_box {r : K} (hfar : FarBounds e it r) {d : Nat → K} (hd : InRegion e it r d) : InBox e it fun j => d j := by
  intro j
  obtain ⟨a, b, c⟩ := hd j j.isLt
  obtain ⟨f1, f2⟩ := hfar j j.isLt
  obtain ⟨a1, a2⟩ := abs_le.mp a
  refine ⟨?_, ?_⟩
  · rcases b with b | b
    · have := f1 b; linarith
    · exact b
  · rcases c with c | c
    · have := f2 c; linarith
    · exact c

/-- shorter steps satisfy the bounds, too -/
theorem box_smul (hit : LpIterate e it) {d : Fin e.numVars → K} (h : InBox e it d) {τ : K} (h0 : 0 ≤ τ) (h1 : τ ≤ 1) : InBox e it (τ • d) := by
  intro j
  obtain ⟨a, b⟩ := h j
  obtain ⟨x, y⟩ := hit.box j j.isLt
  rw [Pi.smul_apply, smul_eq_mul]
  constructor
  · nlinarith
  · nlinarith

/-- the stored Jacobian does not matter for the model -/
theorem model_congr {J' : Mat K} (h : SameMat e.numVars e.numCons it.consJac J') (H : Matrix (Fin e.numVars) (Fin e.numVars) K) (p : K) :
    e.model { it with consJac := J' } H p = e.model it H p := by
  unfold LpEnv.model
  congr 1
  funext i j
  exact sameMat_value h j.isLt i

omit [IsStrictOrderedRing K] in
/-- what the computation of a Cauchy direction leaves alone -/
theorem compute_frame {c : LpCalls K} {t t' : CauchyDir K} {tol feasTol b : K} (h : t.compute e c tol feasTol = some (t', b)) :
    t'.radius = t.radius ∧ t'.feasRes = t.feasRes ∧ t'.allowReset = t.allowReset := by
  have hf : ∀ {a a' : CauchyDir K}, a.fetch e = some a' → a'.radius = a.radius ∧ a'.feasRes = a.feasRes ∧ a'.allowReset = a.allowReset := by
    intro a a' h
    unfold CauchyDir.fetch at h
    obtain ⟨r, -, h⟩ := Option.bind_eq_some_iff.mp h
    obtain ⟨q, -, h⟩ := Option.map_eq_some_iff.mp h
    subst h; exact ⟨rfl, rfl, rfl⟩
  have hu : ∀ {a a' : CauchyDir K}, a.updatePenalty e c tol feasTol = some a' → a'.radius = a.radius ∧ a'.feasRes = a.feasRes ∧ a'.allowReset = a.allowReset := by
    intro a a' h
    unfold CauchyDir.updatePenalty at h
    split at h
    · injection h with h; subst h; exact ⟨rfl, rfl, rfl⟩
    split at h
    · split at h
      · dsimp only at h
        split at h
        · injection h with h; subst h; exact ⟨rfl, rfl, rfl⟩
        · injection h with h; subst h; exact ⟨rfl, rfl, rfl⟩
      · injection h with h; subst h; exact ⟨rfl, rfl, rfl⟩
    · obtain ⟨q, -, h⟩ := Option.map_eq_some_iff.mp h
      subst h; exact ⟨rfl, rfl, rfl⟩
  unfold CauchyDir.compute at h
  obtain ⟨a, h1, h⟩ := Option.bind_eq_some_iff.mp h
  obtain ⟨b, h2, h⟩ := Option.bind_eq_some_iff.mp h
  obtain ⟨v, h3, h⟩ := Option.bind_eq_some_iff.mp h
  obtain ⟨t1, h4, h⟩ := Option.bind_eq_some_iff.mp h
  obtain ⟨t2, h5, h⟩ := Option.bind_eq_some_iff.mp h
  obtain ⟨a1, a2, a3⟩ := hf h4
  obtain ⟨b1, b2, b3⟩ := hu h5
  split at h
  · obtain ⟨t3, h6, h⟩ := Option.bind_eq_some_iff.mp h
    obtain ⟨m, h7, h⟩ := Option.map_eq_some_iff.mp h
    obtain ⟨c1, c2, c3⟩ := hf h6
    injection h with h8 h9
    rw [← h8]
    exact ⟨c1.trans (b1.trans a1), c2.trans (b2.trans a2), c3.trans (b3.trans a3)⟩
  · injection h with h; injection h with h8 h9
    rw [← h8]
    exact ⟨b1.trans a1, b2.trans a2, b3.trans a3⟩

variable {H : CauchyDir K → Matrix (Fin e.numVars) (Fin e.numVars) K} {c : TrialCalls K} {s : TrialSettings K} {t t' : TrialSolver K}

/-- what is known of the Cauchy direction: `d0` is the LP step -/
structure CauchyFor (e : LpEnv K) (J0 : Nat → Nat → K) (s0 : CauchyLp K) (H : CauchyDir K → Matrix (Fin e.numVars) (Fin e.numVars) K) (c : TrialCalls K)
    (s : TrialSettings K) (t t' : TrialSolver K) (d0 : Fin e.numVars → K) (full : Bool) (mv : Option K) : Prop where
  rest : t' = { t with cd := t'.cd, cauchy := t'.cauchy }
  dir : ∃ b, t.cd.compute e c.lp s.tol s.feasTol = some (t'.cd, b)
  same : ∃ J', t'.cd.iterate = { t.cd.iterate with consJac := J' } ∧ SameMat e.numVars e.numCons t.cd.iterate.consJac J'
  lp : LpAt e J0 s0 (some (t.cd.iterate, t.cd.radius)) t'.cd.cauchy
  work : ∃ l, WRep e.numVars e.numCons t'.cd.work l
  pos : 0 < t'.cd.penalty
  zero : (e.model t.cd.iterate (H t'.cd) t'.cd.penalty).quad 0 = t'.cd.merit
  opt : ∃ p, OptStep e t.cd.iterate t.cd.radius (some t.cd.iterate.objGrad) (if t'.cd.performedReset then t.cd.penalty else t'.cd.penalty) p ∧ d0 = fun j : Fin e.numVars => p j
  step : dense e.numVars t'.cd.step = d0
  box : InBox e t.cd.iterate d0
  radius : ∀ j, |d0 j| ≤ t.cd.radius
  descent : t'.cd.performedReset = false →
    (e.model t.cd.iterate (H t'.cd) t'.cd.penalty).lin d0 ≤ (e.model t.cd.iterate (H t'.cd) t'.cd.penalty).quad 0
  simple : s.quadratic = false → DirFor (e.model t.cd.iterate (H t'.cd) t'.cd.penalty) t'.cauchy d0 ∧ full = true ∧ mv = none
  quad : s.quadratic = true → ∃ merit, mv = some merit ∧
    ((∃ τ : K, 0 < τ ∧ τ ≤ 1 ∧ DirFor (e.model t.cd.iterate (H t'.cd) t'.cd.penalty) t'.cauchy (τ • d0) ∧
        (τ • d0) ⬝ᵥ (τ • d0) ≤ t.trustRadius * t.trustRadius ∧
        s.ls.cauchyEta * ((e.model t.cd.iterate (H t'.cd) t'.cd.penalty).quad 0 - (e.model t.cd.iterate (H t'.cd) t'.cd.penalty).lin (τ • d0)) ≤
          (e.model t.cd.iterate (H t'.cd) t'.cd.penalty).quad 0 - (e.model t.cd.iterate (H t'.cd) t'.cd.penalty).quad (τ • d0) ∧
        merit = (e.model t.cd.iterate (H t'.cd) t'.cd.penalty).quad (τ • d0)) ∨
      d0 ≠ 0 ∧ DirFor (e.model t.cd.iterate (H t'.cd) t'.cd.penalty) t'.cauchy 0 ∧ full = false)

theorem direction_spec (hb : LpBounds e) (hnf : NoFixed e) (hz : e.zeroEps = 0) (hc : c.Ok e H) (hs : s.Ok) (ht : t.Ok e J0 s0)
    (hfin : FinLin e t.cd.iterate t.cd.radius) {full : Bool} {mv : Option K} (h : t.cauchyDirection e c s = some (t', full, mv)) :
    ∃ d0, CauchyFor e J0 s0 H c s t t' d0 full mv := by
  unfold TrialSolver.cauchyDirection at h
  obtain ⟨⟨cd, b⟩, h1, h⟩ := Option.bind_eq_some_iff.mp h
  dsimp only at h
  obtain ⟨P, h2, h⟩ := Option.bind_eq_some_iff.mp h
  obtain ⟨D, h3, h⟩ := Option.bind_eq_some_iff.mp h
  obtain ⟨i1, i2, i3, i4⟩ := ht.cd.iterate
  obtain ⟨⟨p, hp⟩, hpos, hm, ⟨J', j1, j2⟩, hat⟩ := C76_direction_partial hb hnf hc.lp ht.cd h1
  have hstep : ∀ j < e.numVars, cd.step.value j = p j := fun j hj => by rw [hp.step.2.2 j hj, hz, dropSmall_zero]
  have hd0 : dense e.numVars cd.step = fun j : Fin e.numVars => p j := funext fun j => hstep j j.isLt
  obtain ⟨P', p1, p2, p3⟩ := copy_spec (v := cd.step) ⟨hp.step.1, hp.step.2.1⟩ ht.cauchy.1
  obtain rfl : P' = P := by rw [h2] at p1; injection p1 with p1; exact p1.symm
  have hP : dense e.numVars P' = fun j : Fin e.numVars => p j := (dense_of_ents p3).trans hd0
  set q := e.model t.cd.iterate (H cd) cd.penalty with hq
  have henv : ∀ work, EnvFor q (cd.merits e work) := fun work => envFor_model hb i1 hz (H cd) j1 work
  have hjg : cd.iterate.objGrad = t.cd.iterate.objGrad := by rw [j1]
  have hjc : cd.iterate.consJac = J' := by rw [j1]
  obtain ⟨D', r1, r2⟩ := C62_reset q { t.cauchy with primal := P' } cd.iterate.objGrad cd.iterate.consJac (c.hess cd) p2 ht.cauchy.2.1 ht.cauchy.2.2
    (by rw [hjg]; exact ht.cd.grad) (by rw [hjg]; rfl) (by rw [hjc]; exact j2.wf) (by rw [hjc]; exact j2.cols)
    (fun i j => by rw [hjc]; exact sameMat_value j2 j.isLt i) (fun d r hd hr => hc.hess cd d r hd hr)
  rw [hz] at h3
  obtain rfl : D' = D := by rw [h3] at r1; injection r1 with r1; exact r1.symm
  change DirFor q D' (dense e.numVars P') at r2
  rw [hP] at r2
  have hreg := hp.opt.1
  have hwork : ∃ l, WRep e.numVars e.numCons cd.work l := hp.work.imp fun _ h => h.1
  have hbox := region_box (e := e) ht.cd.far hreg
  have hzero : q.quad 0 = cd.merit := model_zero hb i1 (H cd) hm
  have hdesc : cd.performedReset = false → q.lin (fun j : Fin e.numVars => p j) ≤ q.quad 0 := by
    intro hr
    have := C76_descent_partial hb hnf hc.lp ht.cd hz h1 hr
    rw [hzero, hq, model_lin _ _ (hfin p hreg)]
    rwa [linModel_congr (d := cd.step.value) (d' := p) hstep] at this
  by_cases hquad : s.quadratic = true
  · rw [if_pos hquad] at h
    obtain ⟨⟨C, f, m⟩, h4, h⟩ := Option.map_eq_some_iff.mp h
    injection h with h5 h6; injection h6 with h6 h7
    subst h5 h6 h7
    obtain ⟨n1, n2⟩ := hc.norm D'.primal r2.okP
    rw [r2.primal] at n2
    have hok : CauchyOk s.ls t.trustRadius (c.norm D'.primal) (fun j : Fin e.numVars => p j) := ⟨hs.cauchyPos, hs.cauchyLe, ht.radius, n1, n2⟩
    refine ⟨fun j => p j, ⟨rfl, ⟨b, h1⟩, ⟨J', j1, j2⟩, hat, hwork, hpos, hzero, ⟨p, hp.opt, rfl⟩, hd0, hbox, fun j => (hreg j j.isLt).1, hdesc,
      fun hn => absurd hquad (by rw [hn]; decide), fun _ => ⟨m, rfl, ?_⟩⟩⟩
    by_cases h0 : (fun j : Fin e.numVars => p j) = 0
    · refine .inl ?_
      have hf := (C43_full_partial (henv _) r2 hok h4).mpr (by rw [h0, smul_zero]; unfold LocalModel.quad; simp)
      rcases C43_step_partial (henv _) r2 hok h4 with g | ⟨-, g⟩
      · exact g
      · exact absurd (hf.symm.trans g) (by decide)
    · rcases C43_step_partial (henv _) r2 hok h4 with g | g
      · exact .inl g
      · exact .inr ⟨h0, g⟩
  · rw [if_neg hquad] at h
    injection h with h; injection h with h5 h6; injection h6 with h6 h7
    subst h5 h6 h7
    exact ⟨fun j => p j, ⟨rfl, ⟨b, h1⟩, ⟨J', j1, j2⟩, hat, hwork, hpos, hzero, ⟨p, hp.opt, rfl⟩, hd0, hbox, fun j => (hreg j j.isLt).1, hdesc,
      fun _ => ⟨r2, rfl, rfl⟩, fun hn => absurd hn hquad⟩⟩

/-- the linear model is convex along a step -/
theorem lin_smul_le {n m : Nat} (q : LocalModel n m K) (hq : 0 ≤ q.penalty) {d : Fin n → K} {τ : K} (h0 : 0 ≤ τ) (h1 : τ ≤ 1) (h : q.lin d ≤ q.quad 0) :
    q.lin (τ • d) ≤ q.quad 0 := by
  have hv := mul_le_mul_of_nonneg_left (model_viol_convex q d h0 h1) hq
  have h2 := mul_le_mul_of_nonneg_left h h0
  rw [quad_zero] at *
  unfold LocalModel.lin at *
  rw [dotProduct_smul, smul_eq_mul]
  nlinarith

end Sleqp

import Verif.Spec.TrialPar
import Verif.Props.TrialPoint
import Verif.Props.Parametric

/-! C119: trial points with parametric Cauchy steps. -/

namespace Sleqp
open Finset Matrix
variable {K : Type*} [Field K] [LinearOrder K] [IsStrictOrderedRing K]
variable {e : LpEnv K} {J0 : Nat → Nat → K} {s0 : CauchyLp K} {H : CauchyDir K → Matrix (Fin e.numVars) (Fin e.numVars) K} {c : TrialCalls K}
variable {s : TrialSettings K} {t : TrialSolver K} {par : ParCalls K} {out : Vec K} {o : TrialPt K} {cd : CauchyDir K}

/-! ### lemmas -/

/-- what is known of the Cauchy direction for the radius given -/
structure ParBase (e : LpEnv K) (H : CauchyDir K → Matrix (Fin e.numVars) (Fin e.numVars) K) (c : TrialCalls K) (s : TrialSettings K) (par : ParCalls K)
    (t : TrialSolver K) (cd : CauchyDir K) (sol : K → Fin e.numVars → K) : Prop where
  par : ParFor (e.model t.cd.iterate (H cd) cd.penalty) sol (t.parEnv e c s par cd)
  same : ∃ J', cd.iterate = { t.cd.iterate with consJac := J' }
  step : VOk e.numVars cd.step
  zero : (e.model t.cd.iterate (H cd) cd.penalty).quad 0 = cd.merit
  radius : cd.radius = t.cd.radius

theorem par_base (hb : LpBounds e) (hnf : NoFixed e) (hz : e.zeroEps = 0) (hc : c.Ok e H) (ht : t.Ok e J0 s0) {b : K}
    (h : t.cd.compute e c.lp s.tol s.feasTol = some (cd, b)) {sol : K → Fin e.numVars → K} (hl : ParLps e H par t cd sol) :
    ParBase e H c s par t cd sol := by
  obtain ⟨i1, i2, i3, i4⟩ := ht.cd.iterate
  obtain ⟨⟨p, hp⟩, hpos, hm, ⟨J', j1, j2⟩, hat⟩ := C76_direction_partial hb hnf hc.lp ht.cd h
  have hjg : cd.iterate.objGrad = t.cd.iterate.objGrad := by rw [j1]
  have hjc : cd.iterate.consJac = J' := by rw [j1]
  refine ⟨⟨envFor_model hb i1 hz (H cd) j1 t.combined, ?_, ?_, ?_, ?_, fun d r hd hr => hc.hess cd d r hd hr, hl.others⟩, ⟨J', j1⟩,
    ⟨hp.step.1, hp.step.2.1⟩, model_zero hb i1 (H cd) hm, (compute_frame h).1⟩
  · show cd.iterate.objGrad.WF ∧ cd.iterate.objGrad.dim = _; rw [hjg]; exact ht.cd.grad
  · show dense _ cd.iterate.objGrad = _; rw [hjg]; rfl
  · show cd.iterate.consJac.WF ∧ cd.iterate.consJac.numCols = _; rw [hjc]; exact ⟨j2.wf, j2.cols⟩
  · intro i j
    show cd.iterate.consJac.value i j = _
    rw [hjc]; exact sameMat_value j2 j.isLt i

/-- the trial point, given the outcome of the search -/
theorem par_point (hb : LpBounds e) (hz : e.zeroEps = 0) (ht : t.Ok e J0 s0) {sol : K → Fin e.numVars → K} (hbase : ParBase e H c s par t cd sol)
    (ho : out.dim = e.numVars) {b : K} (hcd : t.cd.compute e c.lp s.tol s.feasTol = some (cd, b)) {P : ParState K}
    (hP : (t.parEnv e c s par cd).solve cd.step t.cauchy par.last cd.radius = some P) {d0 d : Fin e.numVars → K}
    (hdir : MixedDir (e.model t.cd.iterate (H cd) cd.penalty) d0 d P.dir) (hbox : InBox e t.cd.iterate d) {base : CauchyDir K}
    (h : t.parSimple e c s par out = some (o, base)) :
    base = cd ∧ o.solver.cd = { cd with radius := P.radius, work := par.work cd P.solved } ∧
      MixedDir (e.model t.cd.iterate (H cd) cd.penalty) d0 d o.solver.trial ∧
      (∀ j : Fin e.numVars, o.point.value j = t.cd.iterate.primal.value j + d j ∧ e.bounds.varsLb.value j ≤ o.point.value j ∧
        o.point.value j ≤ e.bounds.varsUb.value j) ∧
      o.merit = (if s.quadratic then mixedMerit (e.model t.cd.iterate (H cd) cd.penalty) d0 d else (e.model t.cd.iterate (H cd) cd.penalty).lin d0) ∧
      o.full = true := by
  unfold TrialSolver.parSimple at h
  obtain ⟨r, h1, h⟩ := Option.bind_eq_some_iff.mp h
  unfold TrialSolver.parDirection at h1
  rw [hcd, Option.bind_some] at h1
  dsimp only at h1
  rw [hP, Option.map_some] at h1
  injection h1 with h1
  subst h1
  dsimp only at h
  obtain ⟨lin, h2, h⟩ := Option.bind_eq_some_iff.mp h
  obtain ⟨merit, h3, h⟩ := Option.bind_eq_some_iff.mp h
  obtain ⟨T, h4, h⟩ := Option.bind_eq_some_iff.mp h
  obtain ⟨x, h5, h⟩ := Option.map_eq_some_iff.mp h
  injection h with h6 h7
  subst h6 h7
  obtain ⟨J', j1⟩ := hbase.same
  have henv : EnvFor (e.model t.cd.iterate (H cd) cd.penalty) (cd.merits e t.combined) := hbase.par.merits
  have h2' : (cd.merits e t.combined).linear P.dir = some lin := h2
  rw [mixedDir_linear henv hdir.store.okC hdir.grad hdir.jac] at h2'
  injection h2' with h2'
  have hT : MixedDir (e.model t.cd.iterate (H cd) cd.penalty) d0 d T := by
    obtain ⟨p, p1, p2, p3⟩ := copy_spec hdir.store.okP ht.trial.1
    obtain ⟨cc, c1, c2, c3⟩ := copy_spec hdir.store.okC ht.trial.2.1
    obtain ⟨w, s1, s2, s3⟩ := copy_spec hdir.store.okH ht.trial.2.2
    unfold Dir.copy at h4
    rw [p1, Option.bind_some, c1, Option.bind_some, s1, Option.bind_some] at h4
    injection h4 with h4
    subst h4
    exact ⟨⟨p2, c2, s2⟩, by rw [← hdir.primal]; exact dense_of_ents p3, by rw [← hdir.hess]; exact dense_of_ents s3, hdir.grad,
      by rw [← hdir.jac]; exact dense_of_ents c3⟩
  obtain ⟨x1, x2, x3⟩ := point_spec hb hz ht.cd.iterate.1 j1 hT.store.okP ho h5
  refine ⟨rfl, rfl, hT, fun j => ⟨?_, x2 j j.isLt⟩, ?_, rfl⟩
  · show x.value j = _
    rw [x3 j j.isLt]
    have hv : T.primal.value j = d j := congrFun hT.primal j
    rw [hv]
    exact min_max_eq (hbox j).1 (hbox j).2
  · show merit = _
    split at h3
    · rename_i hq
      rw [if_pos hq]
      rw [dot_dense hdir.store.okP hdir.store.okH, Option.map_some, hdir.primal, hdir.hess] at h3
      injection h3 with h3
      rw [← h3, ← h2']; rfl
    · rename_i hq
      rw [if_neg hq]
      injection h3 with h3
      rw [← h3, ← h2']

/-- the outcome of the search for larger radii -/
theorem par_solve_forward {n m : Nat} {q : LocalModel n m K} {sol : K → Fin n → K} {E : ParEnv K} (he : ParFor q sol E) (heps : 0 ≤ E.eps)
    (hi : 1 ≤ E.increase) {lp : Vec K} (hlp : lp.WF ∧ lp.dim = n) {D L : Dir K} (hD : DirStore n m D) (hL : DirStore n m L) {r0 : K}
    (hsol : dense n lp = sol r0) (hd : SuffDecrease q E.eta (sol r0)) : ∃ P k, E.solve lp D L r0 = some P ∧ FwdOut q sol E r0 k P := by
  classical
  obtain ⟨D', h1, h2⟩ := par_solve he hlp hD (L := L) r0
  rw [hsol] at h1 h2
  rw [if_pos (decide_eq_true hd)] at h2
  obtain ⟨l, l1, l2⟩ := mixedDir_copy (mixedDir_self.2 h1) hL
  rw [l1, Option.bind_some] at h2
  obtain ⟨out, k, o1, o2, -⟩ := par_forward he heps (by intro h; rw [h] at hi; linarith) E.resolves 0
    ⟨D', l, r0 * E.increase, q.quad (sol r0), r0, 0⟩
    ⟨by simp, by simp, by simpa using mixedDir_self.2 h1, by simpa using l2, by simp [mixedMerit, LocalModel.quad], le_rfl, rfl⟩
  exact ⟨out, k, by rw [h2, o1], o2⟩

/-! ### C119 -/

/-- C119, smaller radii. If the step of the linear program for the radius given does not achieve sufficient decrease, but that for one of the smaller radii tried does,
the trial point is reached by the step for the first such radius. It satisfies the bounds of the variables, the step lies within the new radius, which is
smaller than the one given, and the value predicted with the quadratic model is that of this step, and not larger than the current merit value.
(Missing: larger radii, see `C119_forward_partial`; no radius accepted, see `C79_line_search_violated`; Newton steps; fixed variables; for a positive drop tolerance see `C119_near_partial`.) -/
theorem C119_back_partial (hb : LpBounds e) (hnf : NoFixed e) (hz : e.zeroEps = 0) (hc : c.Ok e H) (hs : s.Ok) (ht : t.Ok e J0 s0)
    (hD : DirStore e.numVars e.numCons t.cauchy) (ho : out.dim = e.numVars) (hdec : 0 ≤ par.decrease) (hdec1 : par.decrease ≤ 1) (hr : 0 ≤ t.cd.radius)
    {b : K} (hcd : t.cd.compute e c.lp s.tol s.feasTol = some (cd, b)) {sol : K → Fin e.numVars → K} (hl : ParLps e H par t cd sol)
    {q : LocalModel e.numVars e.numCons K} (hq : q = e.model t.cd.iterate (H cd) cd.penalty)
    (hd : ¬ SuffDecrease q s.ls.cauchyEta (sol t.cd.radius)) {k : Nat} (hk : k < par.resolves)
    (hsuff : SuffDecrease q s.ls.cauchyEta (sol (t.cd.radius * par.decrease ^ (k + 1))))
    (hfirst : ∀ j < k, ¬ SuffDecrease q s.ls.cauchyEta (sol (t.cd.radius * par.decrease ^ (j + 1)))) {base : CauchyDir K}
    (h : t.parSimple e c s par out = some (o, base)) :
    o.solver.cd.radius = t.cd.radius * par.decrease ^ (k + 1) ∧ o.solver.cd.radius ≤ t.cd.radius ∧ o.solver.cd.work = par.work cd o.solver.cd.radius ∧
      DirFor q o.solver.trial (sol o.solver.cd.radius) ∧
      (∀ j : Fin e.numVars, o.point.value j = t.cd.iterate.primal.value j + sol o.solver.cd.radius j ∧ e.bounds.varsLb.value j ≤ o.point.value j ∧
        o.point.value j ≤ e.bounds.varsUb.value j) ∧
      (∀ j, |sol o.solver.cd.radius j| ≤ o.solver.cd.radius) ∧
      (s.quadratic = true → o.merit = q.quad (sol o.solver.cd.radius) ∧ o.merit ≤ o.solver.cd.merit) := by
  subst hq
  have hbase := par_base hb hnf hz hc ht hcd hl
  obtain ⟨P, p1, p2, p3, -, p5, p6, p7, p8⟩ := C79_back_partial hbase.par hl.family hdec hs.etaNonneg hbase.step par.last hD hr hl.first hd hk hsuff hfirst
  rw [← hbase.radius] at p1
  have h0 : 0 ≤ P.radius := by rw [p2]; exact mul_nonneg hr (pow_nonneg hdec _)
  obtain ⟨-, a2, a3, a4, a5, -⟩ := par_point hb hz ht hbase ho hcd p1 (mixedDir_self.2 p5) (hl.family.bounds _ h0) h
  have hrad : o.solver.cd.radius = P.radius := by rw [a2]
  rw [hrad]
  refine ⟨p2, ?_, by rw [a2, p3], mixedDir_self.1 a3, a4, p7, fun hquad => ?_⟩
  · rw [p2]; exact mul_le_of_le_one_right hr (pow_le_one₀ hdec hdec1)
  · rw [if_pos hquad] at a5
    have hm : o.merit = (e.model t.cd.iterate (H cd) cd.penalty).quad (sol P.radius) := a5
    refine ⟨hm, ?_⟩
    rw [hm, a2]
    show _ ≤ cd.merit
    rw [← hbase.zero]
    exact p8

/-- C119, larger radii. If the step of the linear program for the radius given achieves sufficient decrease, the trial point is reached by the step for this radius or
one obtained by increasing it a number of times. It satisfies the bounds of the variables, and the step lies within the new radius. With the
quadratic model, this step is at least as good as the value predicted, which in turn is at least as good as the step for the radius given, and not larger than the
current merit value. (Missing: the step should be in the trust region, see `C119_trust_violated`; the value predicted should be that of the step, see
`C79_direction_violated`; Newton steps; fixed variables; for a positive drop tolerance see `C119_near_partial`.) -/
theorem C119_forward_partial (hb : LpBounds e) (hnf : NoFixed e) (hz : e.zeroEps = 0) (hc : c.Ok e H) (hs : s.Ok) (ht : t.Ok e J0 s0)
    (hD : DirStore e.numVars e.numCons t.cauchy) (hL : DirStore e.numVars e.numCons par.last) (ho : out.dim = e.numVars) (heps : 0 ≤ s.ls.eps)
    (hi : 1 ≤ par.increase) (hr : 0 ≤ t.cd.radius)
    {b : K} (hcd : t.cd.compute e c.lp s.tol s.feasTol = some (cd, b)) {sol : K → Fin e.numVars → K} (hl : ParLps e H par t cd sol)
    {q : LocalModel e.numVars e.numCons K} (hq : q = e.model t.cd.iterate (H cd) cd.penalty)
    (hd : SuffDecrease q s.ls.cauchyEta (sol t.cd.radius)) {base : CauchyDir K} (h : t.parSimple e c s par out = some (o, base)) :
    ∃ k ≤ par.resolves, ∃ r, r = t.cd.radius * par.increase ^ k ∧ r ≤ o.solver.cd.radius ∧ o.solver.cd.work = par.work cd r ∧
      dense e.numVars o.solver.trial.primal = sol r ∧
      (∀ j : Fin e.numVars, o.point.value j = t.cd.iterate.primal.value j + sol r j ∧ e.bounds.varsLb.value j ≤ o.point.value j ∧
        o.point.value j ≤ e.bounds.varsUb.value j) ∧
      (∀ j, |sol r j| ≤ o.solver.cd.radius) ∧
      (s.quadratic = true → q.quad (sol r) ≤ o.merit ∧ o.merit ≤ q.quad (sol t.cd.radius) ∧ o.merit ≤ o.solver.cd.merit) := by
  classical
  subst hq
  have hbase := par_base hb hnf hz hc ht hcd hl
  obtain ⟨P, k, p1, p2, -, p4, p5, p6, p7, p8, p9, p10, p11, p12, -⟩ := C79_forward_partial hbase.par hl.family heps hi hbase.step hD hL hr hl.first hd
  obtain ⟨hdir, hmer⟩ : MixedDir (e.model t.cd.iterate (H cd) cd.penalty) (sol t.cd.radius) (sol P.solved) P.dir ∧
      P.merit = mixedMerit (e.model t.cd.iterate (H cd) cd.penalty) (sol t.cd.radius) (sol P.solved) := by
    obtain ⟨P', k', o1, o2⟩ := par_solve_forward hbase.par heps hi hbase.step hD hL hl.first hd
    obtain rfl : P' = P := by rw [p1] at o1; injection o1 with o1; exact o1.symm
    exact ⟨by rw [o2.solved]; exact o2.dir, by rw [o2.solved]; exact o2.merit⟩
  rw [← hbase.radius] at p1
  have h0 : 0 ≤ P.solved := by rw [p4]; exact mul_nonneg hr (pow_nonneg (le_trans zero_le_one hi) _)
  obtain ⟨-, a2, a3, a4, a5, -⟩ := par_point hb hz ht hbase ho hcd p1 hdir (hl.family.bounds _ h0) h
  have hrad : o.solver.cd.radius = P.radius := by rw [a2]
  have hsm : s.quadratic = true → o.merit = mixedMerit (e.model t.cd.iterate (H cd) cd.penalty) (sol t.cd.radius) (sol P.solved) := fun hq => by
    rw [a5, if_pos hq]
  have hmo : s.quadratic = true → o.merit = P.merit := fun hq => by rw [hsm hq, hmer]
  refine ⟨k, p2, P.solved, p4, by rw [hrad]; exact p8, by rw [a2], a3.primal, a4, by rw [hrad, ← p5]; exact p9, fun hq => ?_⟩
  rw [hmo hq]
  refine ⟨by rw [← p5]; exact p11, p12, le_trans p12 ?_⟩
  rw [a2]
  show _ ≤ cd.merit
  rw [← hbase.zero]
  have := hl.family.descent hr
  rw [← quad_zero_eq] at this
  have h2 := mul_nonneg hs.etaNonneg (sub_nonneg.2 this)
  unfold SuffDecrease at hd
  linarith

/-! ### samples: minimise `-x` with `-1 ≤ x ≤ 1`, starting at 0 with radius `1/2`; the Hessian is `h` -/

/-- parameters for the Hessian `h` -/
def exTpParCalls (h : ℚ) : TrialCalls ℚ := { exTpCalls with hess := fun _ d _ => some (d.scale h) }

/-- the Hessian -/
def exTpParHess (h : ℚ) : CauchyDir ℚ → Matrix (Fin 1) (Fin 1) ℚ := fun _ _ _ => h

theorem exTpParCalls_ok (h : ℚ) : (exTpParCalls h).Ok exTpEnv (exTpParHess h) where
  lp := exTp_correct
  hess := fun cd d r hd _ => by
    obtain ⟨h1, h2⟩ := scale_dense hd h
    refine ⟨_, rfl, h1, ?_⟩
    funext i
    have hi : i = (0 : Fin 1) := Subsingleton.elim (α := Fin 1) _ _
    rw [h2, hi]
    show h * dense 1 d 0 = ∑ j : Fin 1, h * dense 1 d j
    simp
  norm := exTpCalls_ok.norm

/-- a linear program yields the step `min r 1`; the upper bound is in the working set if it is reached -/
def exTpPar : ParCalls ℚ where
  lpAt := fun _ r _ => some ⟨1, 1, [(0, min r 1)]⟩
  work := fun _ r => if r < 1 then WSet.create 1 1 fun _ => 0 else ((WSet.create 1 1 fun _ => 0).addVar 0 .upper).getD (WSet.create 1 1 fun _ => 0)
  increase := 2
  decrease := 1 / 2
  resolves := 5
  line := none
  last := exTpZero

/-- its solutions -/
def exTpParSol (r : ℚ) : Fin 1 → ℚ := fun _ => min r 1

/-- the trust radius is `3/4` -/
def exTpParSolver : TrialSolver ℚ := { exTpSolver with trustRadius := 3 / 4 }

theorem exTpParSolver_ok : exTpParSolver.Ok exTpEnv (fun _ _ => 0) exLpState := { exTpSolver_ok with radius := by decide +kernel }

/-- the local model -/
def exTpParModel (h p : ℚ) : LocalModel 1 1 ℚ := exTpEnv.model exTpParSolver.cd.iterate (exTpParHess h exTpDir) p

theorem exTpParLin (h p : ℚ) {d : Fin 1 → ℚ} (hd : |d 0| ≤ 1) :
    (exTpParModel h p).lin d = - d 0 := by
  have a : dense 1 exTpParSolver.cd.iterate.objGrad 0 = -1 := by decide +kernel
  have b : dense 1 exTpParSolver.cd.iterate.consVal 0 = 0 := by decide +kernel
  have c : exTpParSolver.cd.iterate.consJac.value 0 0 = 1 := by decide +kernel
  have l : dense 1 exTpEnv.bounds.consLb 0 = -5 := by decide +kernel
  have u : dense 1 exTpEnv.bounds.consUb 0 = 5 := by decide +kernel
  have f : exTpParSolver.cd.iterate.objVal = 0 := by decide +kernel
  obtain ⟨h1, h2⟩ := abs_le.1 hd
  have hv : (exTpParModel h p).viol d = 0 := by
    unfold LocalModel.viol
    show ∑ i : Fin 1, viol (dense 1 exTpParSolver.cd.iterate.consVal i + ∑ j : Fin 1, exTpParSolver.cd.iterate.consJac.value i j * d j)
      (dense 1 exTpEnv.bounds.consLb i) (dense 1 exTpEnv.bounds.consUb i) = 0
    rw [Fin.sum_univ_one, Fin.sum_univ_one]
    show viol (dense 1 exTpParSolver.cd.iterate.consVal 0 + exTpParSolver.cd.iterate.consJac.value 0 0 * d 0) _ _ = 0
    rw [b, c, l, u]
    unfold viol
    rw [max_eq_right]
    apply max_le <;> linarith
  unfold LocalModel.lin
  rw [hv]
  show exTpParSolver.cd.iterate.objVal + ∑ j : Fin 1, dense 1 exTpParSolver.cd.iterate.objGrad j * d j + p * 0 = _
  rw [Fin.sum_univ_one, a, f]
  ring

theorem exTpParQuad (h p : ℚ) {d : Fin 1 → ℚ} (hd : |d 0| ≤ 1) :
    (exTpParModel h p).quad d = - d 0 + 1 / 2 * (h * d 0 * d 0) := by
  unfold LocalModel.quad
  rw [exTpParLin h p hd]
  show _ + 1 / 2 * ∑ i : Fin 1, d i * ∑ j : Fin 1, h * d j = _
  rw [Fin.sum_univ_one, Fin.sum_univ_one]
  ring

theorem exTpParBox (d : Fin 1 → ℚ) : InBox exTpEnv exTpParSolver.cd.iterate d ↔ |d 0| ≤ 1 := by
  have a : exTpEnv.bounds.varsLb.value 0 = -1 := by decide +kernel
  have b : exTpEnv.bounds.varsUb.value 0 = 1 := by decide +kernel
  have c : exTpParSolver.cd.iterate.primal.value 0 = 0 := by decide +kernel
  constructor
  · intro h
    have := h (0 : Fin 1)
    change exTpEnv.bounds.varsLb.value 0 ≤ exTpParSolver.cd.iterate.primal.value 0 + d 0 ∧ exTpParSolver.cd.iterate.primal.value 0 + d 0 ≤ exTpEnv.bounds.varsUb.value 0 at this
    rw [a, b, c] at this
    exact abs_le.2 ⟨by linarith [this.1], by linarith [this.2]⟩
  · intro h j
    obtain rfl : j = (0 : Fin 1) := Subsingleton.elim (α := Fin 1) _ _
    show exTpEnv.bounds.varsLb.value 0 ≤ exTpParSolver.cd.iterate.primal.value 0 + d 0 ∧ exTpParSolver.cd.iterate.primal.value 0 + d 0 ≤ exTpEnv.bounds.varsUb.value 0
    rw [a, b, c]
    obtain ⟨h1, h2⟩ := abs_le.1 h
    exact ⟨by linarith, by linarith⟩

theorem exTpParSol_abs {r : ℚ} (hr : 0 ≤ r) (i : Fin 1) : |exTpParSol r i| ≤ r ∧ |exTpParSol r i| ≤ 1 := by
  unfold exTpParSol
  rw [abs_of_nonneg (le_min hr zero_le_one)]
  exact ⟨min_le_left _ _, min_le_right _ _⟩

theorem exTpParFamily (h p : ℚ) : LpFamily (exTpParModel h p) (fun d => |d 0| ≤ 1) exTpParSol := by
  refine ⟨by simp, fun r hr => (exTpParSol_abs hr 0).2, fun r hr i => (exTpParSol_abs hr i).1, fun r hr d hd hdr => ?_⟩
  rw [exTpParLin h p hd, exTpParLin h p (exTpParSol_abs hr 0).2]
  have := le_min (le_trans (le_abs_self _) (hdr 0)) (le_trans (le_abs_self _) hd)
  unfold exTpParSol
  linarith

theorem exTpParLps (h : ℚ) {cd : CauchyDir ℚ} (hs : cd.step.value 0 = 1 / 2) :
    ParLps exTpEnv (exTpParHess h) exTpPar exTpParSolver cd exTpParSol where
  family :=
    have F := exTpParFamily h cd.penalty
    ⟨(exTpParBox _).2 F.zero, fun r hr => (exTpParBox _).2 (F.bounds r hr), F.within, fun r hr d hd hdr => F.best r hr d ((exTpParBox d).1 hd) hdr⟩
  first := by
    funext j
    obtain rfl : j = (0 : Fin 1) := Subsingleton.elim (α := Fin 1) _ _
    show cd.step.value 0 = min (1 / 2) 1
    rw [hs]; norm_num
  others := fun r v _ _ => ⟨⟨1, 1, [(0, min r 1)]⟩, rfl, exVok _, by
    funext j
    obtain rfl : j = (0 : Fin 1) := Subsingleton.elim (α := Fin 1) _ _
    exact congrFun (exLineDense (min r 1)) 0⟩

theorem exTpParSuff (h p : ℚ) {r : ℚ} (h0 : 0 ≤ r) (h1 : r ≤ 1) :
    SuffDecrease (exTpParModel h p) exLs.cauchyEta (exTpParSol r) ↔ exLs.cauchyEta * r ≤ r - 1 / 2 * (h * r * r) := by
  have hr : exTpParSol r 0 = r := min_eq_left h1
  have ha : |exTpParSol r 0| ≤ 1 := by rw [hr, abs_of_nonneg h0]; exact h1
  unfold SuffDecrease
  rw [exTpParQuad h p ha, exTpParLin h p ha, exTpParQuad h p (d := 0) (by simp), hr]
  simp only [Pi.zero_apply]
  constructor <;> intro g <;> linarith

/-- the Cauchy direction of the samples -/
theorem exTpParCd (h : ℚ) (a : Bool) : ∃ cd b, exTpParSolver.cd.compute exTpEnv (exTpParCalls h).lp (exTpSettings a false).tol (exTpSettings a false).feasTol = some (cd, b) ∧
    cd.step.value 0 = 1 / 2 := by
  have : (exTpSolver.cd.compute exTpEnv exTpCalls.lp (1/10^6) (1/10^6)).map (fun r => r.1.step.value 0) = some (1 / 2) := by decide +kernel
  obtain ⟨⟨cd, b⟩, h1, h2⟩ := Option.map_eq_some_iff.mp this
  exact ⟨cd, b, h1, h2⟩

theorem exTpStore : DirStore 1 1 exTpZero := ⟨exTpVok, exTpVok, exTpVok⟩

-- hypotheses of `C119_back_partial`: the Hessian is 8, the second radius tried, `1/8`, is accepted
example : ∃ o base, exTpParSolver.parSimple exTpEnv (exTpParCalls 8) (exTpSettings true false) exTpPar ⟨1, 0, []⟩ = some (o, base) ∧ o.solver.cd.radius = 1 / 8 := by
  obtain ⟨cd, b, h1, h2⟩ := exTpParCd 8 true
  have hrun : ∃ r, exTpParSolver.parSimple exTpEnv (exTpParCalls 8) (exTpSettings true false) exTpPar ⟨1, 0, []⟩ = some r :=
    Option.isSome_iff_exists.mp (by decide +kernel)
  obtain ⟨⟨o, base⟩, h3⟩ := hrun
  have := C119_back_partial exTpEnv_bounds exTpEnv_noFixed rfl (exTpParCalls_ok 8) (exTpSettings_ok true false) exTpParSolver_ok exTpStore rfl
    (by decide +kernel) (by decide +kernel) (by decide +kernel) h1 (exTpParLps 8 h2) rfl
    (fun h => by
      have := (exTpParSuff 8 cd.penalty (r := 1 / 2) (by norm_num) (by norm_num)).1 h
      norm_num [exLs] at this)
    (k := 1) (by decide)
    ((exTpParSuff 8 cd.penalty (r := 1 / 2 * (1 / 2) ^ 2) (by norm_num) (by norm_num)).2 (by norm_num [exLs]))
    (fun j hj h => by
      obtain rfl : j = 0 := by omega
      have := (exTpParSuff 8 cd.penalty (r := 1 / 2 * (1 / 2) ^ 1) (by norm_num) (by norm_num)).1 h
      norm_num [exLs] at this) h3
  refine ⟨o, base, h3, this.1.trans ?_⟩
  decide +kernel

-- hypotheses of `C119_forward_partial`: the Hessian is `-1/2`, the radius is increased
example : ∃ o base, exTpParSolver.parSimple exTpEnv (exTpParCalls (-1 / 2)) (exTpSettings true false) exTpPar ⟨1, 0, []⟩ = some (o, base) ∧
    o.merit ≤ o.solver.cd.merit := by
  obtain ⟨cd, b, h1, h2⟩ := exTpParCd (-1 / 2) true
  have hrun : ∃ r, exTpParSolver.parSimple exTpEnv (exTpParCalls (-1 / 2)) (exTpSettings true false) exTpPar ⟨1, 0, []⟩ = some r :=
    Option.isSome_iff_exists.mp (by decide +kernel)
  obtain ⟨⟨o, base⟩, h3⟩ := hrun
  obtain ⟨k, -, r, -, -, -, -, -, -, h4⟩ := C119_forward_partial (par := exTpPar) exTpEnv_bounds exTpEnv_noFixed rfl (exTpParCalls_ok (-1 / 2)) (exTpSettings_ok true false) exTpParSolver_ok
    exTpStore exTpStore rfl (by decide +kernel) (by decide +kernel) (by decide +kernel) h1 (exTpParLps (-1 / 2) h2) rfl
    ((exTpParSuff (-1 / 2) cd.penalty (r := 1 / 2) (by norm_num) (by norm_num)).2 (by norm_num [exLs])) h3
  exact ⟨o, base, h3, (h4 rfl).2.2⟩

/-- With parametric Cauchy steps the trust region is not respected: the trust radius is passed to the Newton solver and the line search, but the radius of the linear
programs is increased without regard to it, and the step is not shortened. Here `-x - x² / 4` is minimised with `-1 ≤ x ≤ 1`, starting at 0 with radius
`1/2` for the linear programs and trust radius `3/4`: the trial step is 1. Moreover the multipliers have been estimated for the working set at the radius `1/2`,
which is empty, and are not computed again, although the working set is that of the final radius, which contains the bound; and
the value predicted is `-3/4` instead of `-5/4`. -/
theorem C119_trust_violated : ∃ (e : LpEnv ℚ) (H : CauchyDir ℚ → Matrix (Fin e.numVars) (Fin e.numVars) ℚ) (c : TrialCalls ℚ) (s : TrialSettings ℚ) (par : ParCalls ℚ)
    (t : TrialSolver ℚ) (cd : CauchyDir ℚ) (b : ℚ) (sol : ℚ → Fin e.numVars → ℚ) (out : Vec ℚ) (o : TrialPt ℚ),
    LpBounds e ∧ NoFixed e ∧ c.Ok e H ∧ s.Ok ∧ t.Ok e (fun _ _ => 0) exLpState ∧ t.cd.compute e c.lp s.tol s.feasTol = some (cd, b) ∧ ParLps e H par t cd sol ∧
      SuffDecrease (e.model t.cd.iterate (H cd) cd.penalty) s.ls.cauchyEta (sol t.cd.radius) ∧ t.cd.radius < t.trustRadius ∧ out.dim = e.numVars ∧
      s.quadratic = true ∧ t.parSimple e c s par out = some (o, cd) ∧
      t.trustRadius < |o.point.value 0 - t.cd.iterate.primal.value 0| ∧ cd.work.varState 0 ≠ o.solver.cd.work.varState 0 ∧ o.merit = -3 / 4 := by
  obtain ⟨cd, b, h1, h2⟩ := exTpParCd (-1 / 2) true
  have hrun : (exTpParSolver.parSimple exTpEnv (exTpParCalls (-1 / 2)) (exTpSettings true false) exTpPar ⟨1, 0, []⟩).map
      (fun r => (r.1.point.value 0, r.1.merit, r.2.work.varState 0, r.1.solver.cd.work.varState 0)) = some (1, -3 / 4, .inactive, .upper) := by decide +kernel
  obtain ⟨⟨o, base⟩, h3, h4⟩ := Option.map_eq_some_iff.mp hrun
  simp only [Prod.mk.injEq] at h4
  have hbase : base = cd := by
    unfold TrialSolver.parSimple at h3
    obtain ⟨r, g1, g⟩ := Option.bind_eq_some_iff.mp h3
    unfold TrialSolver.parDirection at g1
    rw [h1, Option.bind_some] at g1
    obtain ⟨P, -, g2⟩ := Option.map_eq_some_iff.mp g1
    subst g2
    obtain ⟨lin, -, g⟩ := Option.bind_eq_some_iff.mp g
    obtain ⟨merit, -, g⟩ := Option.bind_eq_some_iff.mp g
    obtain ⟨T, -, g⟩ := Option.bind_eq_some_iff.mp g
    obtain ⟨x, -, g⟩ := Option.map_eq_some_iff.mp g
    injection g with g3 g4
    exact g4.symm
  subst hbase
  refine ⟨exTpEnv, exTpParHess (-1 / 2), exTpParCalls (-1 / 2), exTpSettings true false, exTpPar, exTpParSolver, base, b, exTpParSol, ⟨1, 0, []⟩, o, exTpEnv_bounds,
    exTpEnv_noFixed, exTpParCalls_ok _, exTpSettings_ok _ _, exTpParSolver_ok, h1, exTpParLps _ h2,
    (exTpParSuff (-1 / 2) base.penalty (r := 1 / 2) (by norm_num) (by norm_num)).2 (by norm_num [exLs]), by decide +kernel, rfl, rfl, h3, ?_, ?_, h4.2.1⟩
  · rw [h4.1]; decide +kernel
  · rw [h4.2.2.1, h4.2.2.2]; decide

end Sleqp

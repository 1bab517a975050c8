import Verif.Props.TrialPar
import Verif.Props.TrialEps
import Verif.Props.ParametricEps

/-! C119 for any drop tolerance. -/

namespace Sleqp
open Finset Matrix
variable {K : Type*} [Field K] [LinearOrder K] [IsStrictOrderedRing K]
variable {e : LpEnv K} {J0 : Nat → Nat → K} {s0 : CauchyLp K} {H : CauchyDir K → Matrix (Fin e.numVars) (Fin e.numVars) K} {c : TrialCalls K}
variable {s : TrialSettings K} {t : TrialSolver K} {par : ParCalls K} {out : Vec K} {o : TrialPt K} {cd : CauchyDir K}

/-! ### lemmas -/

/-- what is known of the Cauchy direction for the radius given -/
structure ParBaseNear (e : LpEnv K) (H : CauchyDir K → Matrix (Fin e.numVars) (Fin e.numVars) K) (c : TrialCalls K) (s : TrialSettings K) (par : ParCalls K)
    (t : TrialSolver K) (cd : CauchyDir K) (sol : K → Fin e.numVars → K) : Prop where
  par : ParNear (e.model t.cd.iterate (H cd) cd.penalty) sol (t.parEnv e c s par cd)
  same : ∃ J', cd.iterate = { t.cd.iterate with consJac := J' }
  step : VOk e.numVars cd.step
  zero : (e.model t.cd.iterate (H cd) cd.penalty).quad 0 = cd.merit
  radius : cd.radius = t.cd.radius
  pos : 0 < cd.penalty

theorem par_base_near (hb : LpBounds e) (hnf : NoFixed e) (hz : 0 ≤ e.zeroEps) (hc : c.Ok e H) (ht : t.Ok e J0 s0) {b : K}
    (h : t.cd.compute e c.lp s.tol s.feasTol = some (cd, b)) {sol : K → Fin e.numVars → K} (hl : ParLps e H par t cd sol) :
    ParBaseNear e H c s par t cd sol := by
  obtain ⟨i1, i2, i3, i4⟩ := ht.cd.iterate
  obtain ⟨⟨p, hp⟩, hpos, hm, ⟨J', j1, j2⟩, hat⟩ := C76_direction_partial hb hnf hc.lp ht.cd h
  have hjg : cd.iterate.objGrad = t.cd.iterate.objGrad := by rw [j1]
  have hjc : cd.iterate.consJac = J' := by rw [j1]
  refine ⟨⟨envNear_model hb i1 hz (H cd) j1 t.combined, ?_, ?_, ?_, ?_, fun d r hd hr => hc.hess cd d r hd hr, hl.others⟩, ⟨J', j1⟩,
    ⟨hp.step.1, hp.step.2.1⟩, model_zero hb i1 (H cd) hm, (compute_frame h).1, hpos⟩
  · show cd.iterate.objGrad.WF ∧ cd.iterate.objGrad.dim = _; rw [hjg]; exact ht.cd.grad
  · show dense _ cd.iterate.objGrad = _; rw [hjg]; rfl
  · show cd.iterate.consJac.WF ∧ cd.iterate.consJac.numCols = _; rw [hjc]; exact ⟨j2.wf, j2.cols⟩
  · intro i j
    show cd.iterate.consJac.value i j = _
    rw [hjc]; exact sameMat_value j2 j.isLt i

/-- the trial point, given the outcome of the search -/
theorem par_point_near (hb : LpBounds e) (hz : 0 ≤ e.zeroEps) (hcl : e.bounds.Clear e.numVars e.zeroEps) (ht : t.Ok e J0 s0)
    {sol : K → Fin e.numVars → K} (hbase : ParBaseNear e H c s par t cd sol)
    (ho : out.dim = e.numVars) {b : K} (hcd : t.cd.compute e c.lp s.tol s.feasTol = some (cd, b)) {P : ParState K}
    (hP : (t.parEnv e c s par cd).solve cd.step t.cauchy par.last cd.radius = some P) {d : Fin e.numVars → K}
    (hokP : VOk e.numVars P.dir.primal) (hd : dense e.numVars P.dir.primal = d) (hbox : InBox e t.cd.iterate d) {base : CauchyDir K}
    (h : t.parSimple e c s par out = some (o, base)) :
    o.solver.cd = { cd with radius := P.radius, work := par.work cd P.solved } ∧ dense e.numVars o.solver.trial.primal = d ∧
      (∀ j : Fin e.numVars, |o.point.value j - (t.cd.iterate.primal.value j + d j)| ≤ 2 * e.zeroEps ∧ e.bounds.varsLb.value j ≤ o.point.value j ∧
        o.point.value j ≤ e.bounds.varsUb.value j) ∧
      ∀ {E : K}, E = cd.penalty * (e.numCons * (2 * e.zeroEps)) →
        DirNear (e.model t.cd.iterate (H cd) cd.penalty) P.dir d ⟨0, 0, e.zeroEps, 0⟩ →
        DirNear (e.model t.cd.iterate (H cd) cd.penalty) o.solver.trial d ⟨0, 0, e.zeroEps, 0⟩ ∧
        |o.merit - (if s.quadratic then (e.model t.cd.iterate (H cd) cd.penalty).quad d else (e.model t.cd.iterate (H cd) cd.penalty).lin d)| ≤ E := by
  unfold TrialSolver.parSimple at h
  obtain ⟨r, h1, h⟩ := Option.bind_eq_some_iff.mp h
  unfold TrialSolver.parDirection at h1
  rw [hcd, Option.bind_some] at h1
  dsimp only at h1
  rw [hP, Option.map_some] at h1
  injection h1 with h1
  subst h1
  dsimp only at h
  obtain ⟨lin, h2, h⟩ := Option.bind_eq_some_iff.mp h
  obtain ⟨merit, h3, h⟩ := Option.bind_eq_some_iff.mp h
  obtain ⟨T, h4, h⟩ := Option.bind_eq_some_iff.mp h
  obtain ⟨x, h5, h⟩ := Option.map_eq_some_iff.mp h
  injection h with h6 h7
  subst h6 h7
  obtain ⟨J', j1⟩ := hbase.same
  have hit := ht.cd.iterate.1
  have hT : VOk e.numVars T.primal ∧ dense e.numVars T.primal = d := by
    obtain ⟨p, p1, p2, p3⟩ := copy_spec hokP ht.trial.1
    unfold Dir.copy at h4
    rw [p1, Option.bind_some] at h4
    obtain ⟨a, -, h4⟩ := Option.bind_eq_some_iff.mp h4
    obtain ⟨a', -, h4⟩ := Option.bind_eq_some_iff.mp h4
    injection h4 with h4
    subst h4
    exact ⟨p2, (dense_of_ents p3).trans hd⟩
  have hp : cd.iterate.primal = t.cd.iterate.primal := by rw [j1]
  change trialFromStep e.zeroEps e.bounds cd.iterate.primal T.primal t.initial out = some x at h5
  rw [hp] at h5
  obtain ⟨x', x1, x2, x3, x4, x5⟩ := C68_trial_point hb.sized hz hcl hit.primal.1 hit.primal.2 hT.1.1 hT.1.2 t.initial ho
  obtain rfl : x' = x := by rw [h5] at x1; injection x1 with x1; exact x1.symm
  refine ⟨rfl, hT.2, fun j => ⟨?_, x4 j j.isLt⟩, fun {E} hE hnear => ?_⟩
  · show |x'.value j - _| ≤ _
    rw [x5 j j.isLt]
    have hv : T.primal.value j = d j := congrFun hT.2 j
    rw [hv]
    have n1 := dropSmall_near hz (min (max (dropSmall e.zeroEps (t.cd.iterate.primal.value j + d j)) (e.bounds.varsLb.value j)) (e.bounds.varsUb.value j))
    have n2 := (clip_near (b := dropSmall e.zeroEps (t.cd.iterate.primal.value j + d j)) (hbox j).1 (hbox j).2).trans (dropSmall_near hz _)
    exact (abs_sub_le _ _ _).trans ((add_le_add n1 n2).trans_eq (two_mul _).symm)
  · have hE' : cd.penalty * (e.numCons * (e.zeroEps + e.zeroEps)) = E := by rw [hE, two_mul]
    obtain ⟨v, v1, v2⟩ := C63_linear_near hbase.par.merits hbase.pos.le hnear
    have hl : |lin - (e.model t.cd.iterate (H cd) cd.penalty).lin d| ≤ E := by
      have h2' : (cd.merits e t.combined).linear P.dir = some lin := h2
      have v1' : (cd.merits e t.combined).linear P.dir = some v := v1
      obtain rfl : v = lin := by rw [h2'] at v1'; injection v1' with v1'; exact v1'.symm
      rw [zero_add] at v2
      exact v2.trans_eq hE'
    obtain ⟨T', c1, c2⟩ := copy_near hnear (T := t.trial) ht.trial.1 ht.trial.2.1 ht.trial.2.2
    obtain rfl : T' = T := by
      have h4' : P.dir.copy t.trial = some T := h4
      rw [h4'] at c1; injection c1 with c1; exact c1.symm
    refine ⟨c2, ?_⟩
    show |merit - _| ≤ _
    split at h3
    · rename_i hq
      rw [if_pos hq]
      have hH : dense e.numVars P.dir.hess = (e.model t.cd.iterate (H cd) cd.penalty).H *ᵥ d :=
        funext fun i => sub_eq_zero.1 (abs_nonpos_iff.1 (hnear.hess i))
      rw [dot_dense hnear.okP hnear.okH, Option.map_some, hd, hH] at h3
      injection h3 with h3
      rw [← h3]
      unfold LocalModel.quad
      rw [add_sub_add_right_eq_sub]
      exact hl
    · rename_i hq
      rw [if_neg hq]
      injection h3 with h3
      rw [← h3]
      exact hl

/-! ### C119 -/

/-- C119, for any drop tolerance, where the linear programs yield exact solutions without entries to be dropped. If the step for the radius given, or for one of the
smaller radii tried, clearly achieves sufficient decrease (even if merit values are wrong by the error `E`, which is proportional to penalty parameter, number
of constraints and tolerance), the trial point is reached, up to twice the tolerance, by the step `sol r` for one of the radii tried. It satisfies the bounds of the
variables, the step lies within the new radius, the working set is that of the radius `r`, and the quadratic model of the step is larger than the current merit
value by at most a multiple of `E`. The radius `r` is obtained by increasing the radius given if its step achieves sufficient decrease up to the error;
otherwise it is the first of the smaller ones for which none before it clearly achieves sufficient decrease, and then the
value predicted with the quadratic model is that of the step, up to `E`.
(Missing: the step should be in the trust region, see `C119_trust_violated`; the value predicted for larger radii should be that of the step, see
`C79_direction_violated`; no radius accepted, see `C79_line_search_violated`; Newton steps; fixed variables.) -/
theorem C119_near_partial (hb : LpBounds e) (hnf : NoFixed e) (hz : 0 ≤ e.zeroEps) (hcl : e.bounds.Clear e.numVars e.zeroEps) (hc : c.Ok e H) (hs : s.Ok)
    (ht : t.Ok e J0 s0) (hD : DirStore e.numVars e.numCons t.cauchy) (hL : DirStore e.numVars e.numCons par.last) (ho : out.dim = e.numVars)
    (heps : 0 ≤ s.ls.eps) (hi : 1 ≤ par.increase) (hdec : 0 ≤ par.decrease) (hr : 0 ≤ t.cd.radius)
    {b : K} (hcd : t.cd.compute e c.lp s.tol s.feasTol = some (cd, b)) {sol : K → Fin e.numVars → K} (hl : ParLps e H par t cd sol)
    {q : LocalModel e.numVars e.numCons K} (hq : q = e.model t.cd.iterate (H cd) cd.penalty) {c0 : Nat} (hres : par.resolves = c0 + 1)
    {E : K} (hE : E = q.penalty * (e.numCons * (2 * e.zeroEps)))
    (hgood : SuffDespite q s.ls.cauchyEta E (sol t.cd.radius) ∨
      ∃ k < par.resolves, SuffDespite q s.ls.cauchyEta E (sol (t.cd.radius * par.decrease ^ (k + 1))))
    {base : CauchyDir K} (h : t.parSimple e c s par out = some (o, base)) :
    ∃ r, 0 ≤ r ∧ r ≤ o.solver.cd.radius ∧ o.solver.cd.work = par.work cd r ∧ dense e.numVars o.solver.trial.primal = sol r ∧
      (∀ j : Fin e.numVars, |o.point.value j - (t.cd.iterate.primal.value j + sol r j)| ≤ 2 * e.zeroEps ∧ e.bounds.varsLb.value j ≤ o.point.value j ∧
        o.point.value j ≤ e.bounds.varsUb.value j) ∧
      (∀ j, |sol r j| ≤ o.solver.cd.radius) ∧ q.quad (sol r) ≤ o.solver.cd.merit + (|1 - s.ls.cauchyEta| * E + 2 * E) ∧
      ((SuffUpTo q s.ls.cauchyEta E (sol t.cd.radius) ∧ ∃ k ≤ par.resolves, r = t.cd.radius * par.increase ^ k) ∨
        (¬ SuffDespite q s.ls.cauchyEta E (sol t.cd.radius) ∧ ∃ k < par.resolves, r = t.cd.radius * par.decrease ^ (k + 1) ∧ o.solver.cd.radius = r ∧
          (∀ j < k, ¬ SuffDespite q s.ls.cauchyEta E (sol (t.cd.radius * par.decrease ^ (j + 1)))) ∧
          DirNear q o.solver.trial (sol r) ⟨0, 0, e.zeroEps, 0⟩ ∧ (s.quadratic = true → |o.merit - q.quad (sol r)| ≤ E))) := by
  subst hq
  have hbase := par_base_near hb hnf hz hc ht hcd hl
  have hE0 : 0 ≤ E := by rw [hE]; exact mul_nonneg hbase.pos.le (mul_nonneg (Nat.cast_nonneg _) (mul_nonneg zero_le_two hz))
  have key := C79_near_partial (e := t.parEnv e c s par cd) hbase.par hl.family hbase.pos.le heps hi hdec hbase.step hD hL hr hl.first hres hE
  have hquad : ∀ {d : Fin e.numVars → K}, (e.model t.cd.iterate (H cd) cd.penalty).lin d ≤ (e.model t.cd.iterate (H cd) cd.penalty).lin 0 →
      SuffUpTo (e.model t.cd.iterate (H cd) cd.penalty) s.ls.cauchyEta E d →
      (e.model t.cd.iterate (H cd) cd.penalty).quad d ≤ cd.merit + |1 - s.ls.cauchyEta| * E := by
    intro d h1 h2
    rw [← hbase.zero]
    rw [← quad_zero_eq] at h1
    have h3 := mul_nonneg hs.etaNonneg (sub_nonneg.2 h1)
    unfold SuffUpTo at h2
    linarith
  rcases key with ⟨u, P, k, p1, p2, -, p4, p5, p6, -, -, p9, p10, p11, p12, p13⟩ | ⟨u, P, k, p1, p2, p3, p4, p5, p6, -, p8, p9, p10⟩ | ⟨u1, u2, -⟩
  · rw [← hbase.radius] at p1
    obtain ⟨a1, a2, a3, -⟩ := par_point_near hb hz hcl ht hbase ho hcd p1 p5 p6 (by rw [← p6]; exact p11) h
    have h0 : 0 ≤ P.solved := by rw [p4]; exact mul_nonneg hr (pow_nonneg (zero_le_one.trans hi) _)
    refine ⟨P.solved, h0, by rw [a1]; exact p9, by rw [a1], a2, a3, by rw [a1, ← p6]; exact p10, ?_, .inl ⟨u, k, p2, p4⟩⟩
    rw [a1]
    show _ ≤ cd.merit + _
    rw [p6] at p12
    have := hquad (hl.family.descent hr) u
    linarith
  · rw [← hbase.radius] at p1
    have h0 : 0 ≤ P.radius := by rw [p5]; exact mul_nonneg hr (pow_nonneg hdec _)
    obtain ⟨a1, a2, a3, a4⟩ := par_point_near hb hz hcl ht hbase ho hcd p1 p8.okP (d := sol P.radius)
      (funext fun i => sub_eq_zero.1 (abs_nonpos_iff.1 (p8.primal i))) (hl.family.bounds _ h0) h
    obtain ⟨a5, a6⟩ := a4 hE p8
    refine ⟨P.radius, h0, by rw [a1], by rw [a1, p6], a2, a3, by rw [a1]; exact p10, ?_, .inr ⟨u, k, p2, p5, by rw [a1], p4, a5, fun hq => ?_⟩⟩
    · rw [a1]
      show _ ≤ cd.merit + _
      have := hquad (hl.family.descent h0) (by rw [p5]; exact p3)
      linarith
    · rw [if_pos hq] at a6
      exact a6
  · rcases hgood with hg | ⟨k, hk, hg⟩
    · exact absurd hg u1
    · exact absurd hg (u2 k hk)

/-! ### sample: drop tolerance 1/1000 and Hessian 8, so that the second radius tried, `1/8`, is accepted -/

theorem exTpParEps_calls (h : ℚ) : (exTpParCalls h).Ok exTpEnvEps (exTpParHess h) := ⟨(exTpParCalls_ok h).lp, (exTpParCalls_ok h).hess, (exTpParCalls_ok h).norm⟩

theorem exTpParEps_solver : exTpParSolver.Ok exTpEnvEps (fun _ _ => 0) exLpState :=
  ⟨exTpEnvEps_dir, exTpParSolver_ok.radius, exTpParSolver_ok.cauchy, exTpParSolver_ok.trial, exTpParSolver_ok.newtonWork, exTpParSolver_ok.multWork⟩

theorem exTpParEps_suff (h p : ℚ) {r E : ℚ} (h0 : 0 ≤ r) (h1 : r ≤ 1) :
    SuffDespite (exTpParModel h p) exLs.cauchyEta E (exTpParSol r) ↔ exLs.cauchyEta * r + |1 - exLs.cauchyEta| * E ≤ r - 1 / 2 * (h * r * r) := by
  have hr : exTpParSol r 0 = r := min_eq_left h1
  have ha : |exTpParSol r 0| ≤ 1 := by rw [hr, abs_of_nonneg h0]; exact h1
  unfold SuffDespite
  rw [exTpParQuad h p ha, exTpParLin h p ha, exTpParQuad h p (d := 0) (by simp), hr]
  simp only [Pi.zero_apply]
  constructor <;> intro g <;> linarith

-- hypotheses of `C119_near_partial`
example : ∃ o base, exTpParSolver.parSimple exTpEnvEps (exTpParCalls 8) (exTpSettings true false) exTpPar ⟨1, 0, []⟩ = some (o, base) ∧
    ∃ r, 0 ≤ r ∧ |o.point.value 0 - exTpParSol r 0| ≤ 2 * (1 / 1000) := by
  have hc : (exTpParSolver.cd.compute exTpEnvEps (exTpParCalls 8).lp (exTpSettings true false).tol (exTpSettings true false).feasTol).map
      (fun r => (r.1.step.value 0, r.1.penalty)) = some (1 / 2, 10) := by decide +kernel
  obtain ⟨⟨cd, b⟩, h1, h2⟩ := Option.map_eq_some_iff.mp hc
  injection h2 with h2 h2'
  have hrun : ∃ r, exTpParSolver.parSimple exTpEnvEps (exTpParCalls 8) (exTpSettings true false) exTpPar ⟨1, 0, []⟩ = some r :=
    Option.isSome_iff_exists.mp (by decide +kernel)
  obtain ⟨⟨o, base⟩, h3⟩ := hrun
  have L := exTpParLps 8 h2
  have hE : (1 / 50 : ℚ) = cd.penalty * (1 * (2 * (1 / 1000))) := by
    change cd.penalty = 10 at h2'
    rw [h2']; norm_num
  obtain ⟨r, r1, -, -, -, r2, -⟩ := C119_near_partial (e := exTpEnvEps) (H := exTpParHess 8) (s := exTpSettings true false) (par := exTpPar) exTpEnvEps_bounds exTpEnv_noFixed
    (by decide +kernel) exTpEnvEps_clear (exTpParEps_calls 8) (exTpSettings_ok true false) exTpParEps_solver exTpStore exTpStore rfl
    (by decide +kernel) (by decide +kernel) (by decide +kernel) (by decide +kernel) h1 (sol := exTpParSol) ⟨L.family, L.first, L.others⟩ rfl (c0 := 4) rfl
    (E := 1 / 50) (by rw [hE]; exact congrArg _ (congrArg (· * _) Nat.cast_one.symm))
    (.inr ⟨1, by decide, (exTpParEps_suff 8 cd.penalty (r := 1 / 2 * (1 / 2) ^ 2) (by norm_num) (by norm_num)).2 (by norm_num [exLs, abs_of_pos])⟩) h3
  refine ⟨o, base, h3, r, r1, ?_⟩
  have := (r2 (0 : Fin 1)).1
  have hx : exTpParSolver.cd.iterate.primal.value 0 = 0 := by decide +kernel
  change |o.point.value 0 - (exTpParSolver.cd.iterate.primal.value 0 + exTpParSol r 0)| ≤ 2 * (1 / 1000) at this
  rw [hx, zero_add] at this
  exact this

end Sleqp

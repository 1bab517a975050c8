import Verif.Lemmas.TrialPointEx

/-! C77: trial points and predicted merit values. -/

namespace Sleqp
open Finset Matrix
variable {K : Type*} [Field K] [LinearOrder K] [IsStrictOrderedRing K]
variable {e : LpEnv K} {J0 : Nat → Nat → K} {s0 : CauchyLp K} {H : CauchyDir K → Matrix (Fin e.numVars) (Fin e.numVars) K} {c : TrialCalls K}
variable {s : TrialSettings K} {t t' : TrialSolver K} {out : Vec K} {o : TrialPt K}

/-- what holds of every Cauchy step -/
theorem cauchy_step (hs : s.Ok) (hit : LpIterate e t.cd.iterate) {d0 : Fin e.numVars → K} {full : Bool} {mv : Option K}
    (h : CauchyFor e J0 s0 H c s t t' d0 full mv) :
    ∃ τ : K, 0 ≤ τ ∧ τ ≤ 1 ∧ DirFor (e.model t.cd.iterate (H t'.cd) t'.cd.penalty) t'.cauchy (τ • d0) ∧ (s.quadratic = false → τ = 1) ∧
      (s.quadratic = true → (τ • d0) ⬝ᵥ (τ • d0) ≤ t.trustRadius * t.trustRadius) ∧
      (t'.cd.performedReset = false → (e.model t.cd.iterate (H t'.cd) t'.cd.penalty).lin (τ • d0) ≤ t'.cd.merit) ∧
      (s.quadratic = true → t'.cd.performedReset = false → (e.model t.cd.iterate (H t'.cd) t'.cd.penalty).quad (τ • d0) ≤ t'.cd.merit) ∧
      ∀ m, mv = some m → (d0 ≠ 0 → τ ≠ 0) → m = (e.model t.cd.iterate (H t'.cd) t'.cd.penalty).quad (τ • d0) := by
  have hpen : 0 ≤ (e.model t.cd.iterate (H t'.cd) t'.cd.penalty).penalty := h.pos.le
  have hz := h.zero
  cases hq : s.quadratic with
  | false =>
    obtain ⟨a, b, f⟩ := h.simple hq
    refine ⟨1, zero_le_one, le_rfl, by rw [one_smul]; exact a, fun _ => rfl, fun h => (by cases h), fun hr => ?_, fun h => (by cases h), fun m hm => ?_⟩
    · rw [one_smul, ← hz]; exact h.descent hr
    · rw [f] at hm; cases hm
  | true =>
    obtain ⟨merit, m1, m2⟩ := h.quad hq
    rcases m2 with ⟨τ, a1, a2, a3, a4, a5, a6⟩ | ⟨b1, b2, b3⟩
    · have hl : t'.cd.performedReset = false → (e.model t.cd.iterate (H t'.cd) t'.cd.penalty).lin (τ • d0) ≤ t'.cd.merit := fun hr => by
        rw [← hz]; exact lin_smul_le _ hpen a1.le a2 (h.descent hr)
      refine ⟨τ, a1.le, a2, a3, fun h => (by cases h), fun _ => a4, hl, fun _ hr => ?_, fun m hm _ => ?_⟩
      · have := mul_nonneg hs.etaNonneg (sub_nonneg.2 (hl hr))
        rw [hz] at a5
        linarith
      · rw [m1] at hm; injection hm with hm; rw [← hm]; exact a6
    · refine ⟨0, le_rfl, zero_le_one, by rw [zero_smul]; exact b2, fun h => (by cases h), fun _ => ?_, fun _ => ?_, fun _ _ => ?_, fun m hm hn => absurd rfl (hn b1)⟩
      · rw [zero_smul, zero_dotProduct]; exact mul_self_nonneg _
      · rw [zero_smul, ← hz]; unfold LocalModel.quad; simp
      · rw [zero_smul, ← hz]

/-- the point computed from a step -/
theorem point_spec (hb : LpBounds e) (hz : e.zeroEps = 0) (hit : LpIterate e t.cd.iterate) {it : Iterate K} {J' : Mat K}
    (hs : it = { t.cd.iterate with consJac := J' }) {v tmp x : Vec K} (hv : VOk e.numVars v) (ho : out.dim = e.numVars)
    (h : trialFromStep e.zeroEps e.bounds it.primal v tmp out = some x) :
    VOk e.numVars x ∧ (∀ j < e.numVars, e.bounds.varsLb.value j ≤ x.value j ∧ x.value j ≤ e.bounds.varsUb.value j) ∧
      ∀ j < e.numVars, x.value j = min (max (t.cd.iterate.primal.value j + v.value j) (e.bounds.varsLb.value j)) (e.bounds.varsUb.value j) := by
  have hcl : e.bounds.Clear e.numVars 0 := fun j hj => by
    obtain ⟨a, b⟩ := hit.box j hj
    refine ⟨a.trans b, le_or_gt _ _, ?_⟩
    rw [neg_zero]; exact le_or_gt _ _
  have hp : it.primal = t.cd.iterate.primal := by rw [hs]
  rw [hz, hp] at h
  obtain ⟨x', a1, a2, a3, a4, a5⟩ := C68_trial_point hb.sized le_rfl hcl hit.primal.1 hit.primal.2 hv.1 hv.2 tmp ho
  obtain rfl : x' = x := by rw [h] at a1; injection a1 with a1; exact a1.symm
  refine ⟨⟨a2, a3⟩, a4, fun j hj => ?_⟩
  rw [a5 j hj, dropSmall_zero, dropSmall_zero]

theorem min_max_eq {a l u : K} (h1 : l ≤ a) (h2 : a ≤ u) : min (max a l) u = a := by rw [max_eq_left h1, min_eq_left h2]

/-- C77. Without Newton step, the trial point is reached by a multiple in [0,1] of a minimiser of the linear model in the LP trust region; it satisfies the bounds of
the variables, and the step is in the trust region. The predicted merit value is that of the model (quadratic, or else linear) at this step, with the
penalty parameter and the merit value the solver keeps, and not larger than that value. (Missing: after a reset of the penalty parameter it
may be larger, compare `C76_reset_violated`; fixed variables.) -/
theorem C77_simple_partial (hb : LpBounds e) (hnf : NoFixed e) (hz : e.zeroEps = 0) (hc : c.Ok e H) (hs : s.Ok) (ht : t.Ok e J0 s0)
    (hfin : FinLin e t.cd.iterate t.cd.radius) (ho : out.dim = e.numVars) (hn : (s.quadratic && s.newton) = false)
    (h : t.compute e c s out = some o) :
    ∃ (p : Nat → K) (τ : K) (d : Fin e.numVars → K),
      OptStep e t.cd.iterate t.cd.radius (some t.cd.iterate.objGrad) (if o.solver.cd.performedReset then t.cd.penalty else o.solver.cd.penalty) p ∧
      0 ≤ τ ∧ τ ≤ 1 ∧ (d = τ • fun j : Fin e.numVars => p j) ∧ (s.quadratic = false → τ = 1) ∧
      DirFor (e.model t.cd.iterate (H o.solver.cd) o.solver.cd.penalty) o.solver.trial d ∧
      (∀ j : Fin e.numVars, o.point.value j = t.cd.iterate.primal.value j + d j ∧ e.bounds.varsLb.value j ≤ o.point.value j ∧ o.point.value j ≤ e.bounds.varsUb.value j) ∧
      (∀ j, |d j| ≤ t.cd.radius) ∧ (s.quadratic = true → d ⬝ᵥ d ≤ t.trustRadius * t.trustRadius) ∧
      o.merit = (if s.quadratic then (e.model t.cd.iterate (H o.solver.cd) o.solver.cd.penalty).quad d
        else (e.model t.cd.iterate (H o.solver.cd) o.solver.cd.penalty).lin d) ∧
      (e.model t.cd.iterate (H o.solver.cd) o.solver.cd.penalty).quad 0 = o.solver.cd.merit ∧
      (o.solver.cd.performedReset = false → o.merit ≤ o.solver.cd.merit) ∧ o.failed = false := by
  unfold TrialSolver.compute at h
  rw [hn, if_neg (by decide)] at h
  unfold TrialSolver.simple at h
  obtain ⟨⟨t', full, mv⟩, h1, h⟩ := Option.bind_eq_some_iff.mp h
  dsimp only at h
  obtain ⟨lin, h2, h⟩ := Option.bind_eq_some_iff.mp h
  obtain ⟨merit, h3, h⟩ := Option.bind_eq_some_iff.mp h
  obtain ⟨T, h4, h⟩ := Option.bind_eq_some_iff.mp h
  obtain ⟨x, h5, h⟩ := Option.map_eq_some_iff.mp h
  have hit := ht.cd.iterate.1
  obtain ⟨d0, hd⟩ := direction_spec hb hnf hz hc hs ht hfin h1
  obtain ⟨τ, a1, a2, a3, a4, a5, a6, a7, -⟩ := cauchy_step hs hit hd
  obtain ⟨p, p1, p2⟩ := hd.opt
  obtain ⟨J', j1, j2⟩ := hd.same
  have hrest := hd.rest
  subst h
  have henv := envFor_model hb hit hz (H t'.cd) j1 t'.combined
  rw [C63_linear henv a3] at h2
  injection h2 with h2
  obtain ⟨T', c1, c2⟩ := C62_copy a3 (T := t'.trial) (by rw [hrest]; exact ht.trial.1) (by rw [hrest]; exact ht.trial.2.1) (by rw [hrest]; exact ht.trial.2.2)
  obtain rfl : T' = T := by rw [h4] at c1; injection c1 with c1; exact c1.symm
  obtain ⟨x1, x2, x3⟩ := point_spec hb hz hit j1 c2.okP ho h5
  have hbox := box_smul hit hd.box a1 a2
  have hm : merit = if s.quadratic then (e.model t.cd.iterate (H t'.cd) t'.cd.penalty).quad (τ • d0)
      else (e.model t.cd.iterate (H t'.cd) t'.cd.penalty).lin (τ • d0) := by
    split at h3
    · rename_i hq
      rw [if_pos hq]
      rw [dot_dense a3.okP a3.okH, Option.map_some, a3.primal, a3.hess] at h3
      injection h3 with h3
      rw [← h3, ← h2]; rfl
    · rename_i hq
      rw [if_neg hq]
      injection h3 with h3
      rw [← h3, ← h2]
  refine ⟨p, τ, τ • d0, p1, a1, a2, by rw [p2], a4, c2, fun j => ⟨?_, x2 j j.isLt⟩, fun j => ?_, a5, hm, hd.zero, fun hr => ?_, rfl⟩
  · show x.value j = _
    rw [x3 j j.isLt]
    have hv : T'.primal.value j = (τ • d0) j := congrFun c2.primal j
    rw [hv]
    exact min_max_eq (hbox j).1 (hbox j).2
  · rw [Pi.smul_apply, smul_eq_mul, abs_mul, abs_of_nonneg a1]
    exact (mul_le_of_le_one_left (abs_nonneg _) a2).trans (hd.radius j)
  · show merit ≤ _
    rw [hm]
    split
    · rename_i hq; exact a7 hq hr
    · exact a6 hr

/-- the segment between two points of the trust region lies in it -/
theorem segment_norm {n : Nat} {R : K} {c d : Fin n → K} (hc : c ⬝ᵥ c ≤ R * R) (hd : d ⬝ᵥ d ≤ R * R) {a : K} (h0 : 0 ≤ a) (h1 : a ≤ 1) :
    ((1 - a) • c + a • d) ⬝ᵥ ((1 - a) • c + a • d) ≤ R * R := by
  have key : 0 ≤ (c - d) ⬝ᵥ (c - d) := sum_nonneg fun i _ => mul_self_nonneg _
  simp only [sub_dotProduct, dotProduct_sub] at key
  rw [dotProduct_comm d c] at key
  simp only [add_dotProduct, dotProduct_add, smul_dotProduct, dotProduct_smul, smul_eq_mul]
  rw [dotProduct_comm d c]
  have h2 := mul_nonneg (mul_nonneg (sub_nonneg.2 h1) h0) key
  have h3 := mul_le_mul_of_nonneg_left hc (sub_nonneg.2 h1)
  have h4 := mul_le_mul_of_nonneg_left hd h0
  nlinarith

/-- the Newton direction belongs to the model and is in the trust region, compare `C70_direction_partial` -/
def NewtonOk (e : LpEnv K) (H : CauchyDir K → Matrix (Fin e.numVars) (Fin e.numVars) K) (c : TrialCalls K) (s : TrialSettings K) (t : TrialSolver K) : Prop :=
  ∀ cd b D N, t.cd.compute e c.lp s.tol s.feasTol = some (cd, b) → c.newton cd D = some N →
    (H cd).IsSymm ∧ ∃ d, DirFor (e.model t.cd.iterate (H cd) cd.penalty) N d ∧ d ⬝ᵥ d ≤ t.trustRadius * t.trustRadius

/-- what is common to both line searches -/
theorem newton_unfold (hb : LpBounds e) (hnf : NoFixed e) (hz : e.zeroEps = 0) (hc : c.Ok e H) (hs : s.Ok) (ht : t.Ok e J0 s0)
    (hfin : FinLin e t.cd.iterate t.cd.radius) (hn : (s.quadratic && s.newton) = true) (hN : NewtonOk e H c s t)
    (hup : dense e.numVars o.solver.cd.step ≠ 0 → dense e.numVars o.solver.cauchy.primal ≠ 0)
    (h : t.compute e c s out = some o) :
    ∃ (t' : TrialSolver K) (full : Bool) (mv : Option K) (d0 : Fin e.numVars → K) (τ : K) (N : Dir K) (d : Fin e.numVars → K) (q : TrialRes K),
      CauchyFor e J0 s0 H c s t t' d0 full mv ∧ 0 ≤ τ ∧ τ ≤ 1 ∧
      DirFor (e.model t.cd.iterate (H t'.cd) t'.cd.penalty) t'.cauchy (τ • d0) ∧
      (τ • d0) ⬝ᵥ (τ • d0) ≤ t.trustRadius * t.trustRadius ∧
      (t'.cd.performedReset = false → (e.model t.cd.iterate (H t'.cd) t'.cd.penalty).quad (τ • d0) ≤ t'.cd.merit) ∧
      (H t'.cd).IsSymm ∧ DirFor (e.model t.cd.iterate (H t'.cd) t'.cd.penalty) N d ∧ d ⬝ᵥ d ≤ t.trustRadius * t.trustRadius ∧
      t'.search e c s N ((e.model t.cd.iterate (H t'.cd) t'.cd.penalty).quad (τ • d0)) = some q ∧
      (∃ x, trialFromStep e.zeroEps e.bounds t'.cd.iterate.primal q.dir.primal t'.initial out = some x ∧
        o = ⟨{ t' with newton := N, trial := q.dir }, x, q.merit, decide (q.alpha = 0), full⟩) := by
  unfold TrialSolver.compute at h
  rw [hn, if_pos rfl] at h
  have hq : s.quadratic = true := (Bool.and_eq_true _ _ ▸ hn).1
  unfold TrialSolver.newtonPoint at h
  obtain ⟨⟨t', full, mv⟩, h1, h⟩ := Option.bind_eq_some_iff.mp h
  dsimp only at h
  obtain ⟨m, h2, h⟩ := Option.bind_eq_some_iff.mp h
  obtain ⟨N, h3, h⟩ := Option.bind_eq_some_iff.mp h
  obtain ⟨q, h4, h⟩ := Option.bind_eq_some_iff.mp h
  obtain ⟨x, h5, h⟩ := Option.map_eq_some_iff.mp h
  obtain ⟨d0, hd⟩ := direction_spec hb hnf hz hc hs ht hfin h1
  obtain ⟨τ, a1, a2, a3, a4, a5, a6, a7, a8⟩ := cauchy_step hs ht.cd.iterate.1 hd
  obtain ⟨b, hb'⟩ := hd.dir
  obtain ⟨n1, d, n2, n3⟩ := hN _ b _ _ hb' h3
  rw [← h] at hup
  dsimp only at hup
  have hm := a8 m h2 fun h0 hτ => hup (by rw [hd.step]; exact h0) (by rw [a3.primal, hτ, zero_smul])
  rw [hm] at h4
  exact ⟨t', full, mv, d0, τ, N, d, q, hd, a1, a2, a3, a5 hq, a7 hq, n1, n2, n3, h4, x, h5, h.symm⟩

/-- C77. With Newton step and the line search used by default, the trial step lies between a multiple in [0,1] of a minimiser of the linear model in the LP trust region,
the Cauchy step, and the Newton step, in the trust region; the trial point is reached by this step, projected onto the bounds of the variables, where the projection
does nothing unless the Newton step leaves a bound active at the Cauchy point. The predicted merit value is that of the quadratic model at the trial
step, bounded in terms of the value at the Cauchy step, which in turn is not larger than the current merit value. The step counts as failed
exactly if it is the Cauchy step. (Missing: the Cauchy line search may give up, leaving a wrong merit value, see `C43_zero_violated`; a slope that is
positive, see `C44_worse_violated`; a reset of the penalty parameter, compare `C76_reset_violated`; fixed variables.) -/
theorem C77_newton_partial (hb : LpBounds e) (hnf : NoFixed e) (hz : e.zeroEps = 0) (hc : c.Ok e H) (hs : s.Ok) (ht : t.Ok e J0 s0)
    (hfin : FinLin e t.cd.iterate t.cd.radius) (ho : out.dim = e.numVars) (hn : (s.quadratic && s.newton) = true) (hx : s.exact = false)
    (hN : NewtonOk e H c s t) (hup : dense e.numVars o.solver.cd.step ≠ 0 → dense e.numVars o.solver.cauchy.primal ≠ 0)
    (h : t.compute e c s out = some o) :
    ∃ (p : Nat → K) (τ α : K) (c d : Fin e.numVars → K),
      OptStep e t.cd.iterate t.cd.radius (some t.cd.iterate.objGrad) (if o.solver.cd.performedReset then t.cd.penalty else o.solver.cd.penalty) p ∧
      0 ≤ τ ∧ τ ≤ 1 ∧ (c = τ • fun j : Fin e.numVars => p j) ∧ 0 ≤ α ∧ α ≤ 1 ∧ (o.failed = true ↔ α = 0) ∧
      DirFor (e.model t.cd.iterate (H o.solver.cd) o.solver.cd.penalty) o.solver.cauchy c ∧
      DirFor (e.model t.cd.iterate (H o.solver.cd) o.solver.cd.penalty) o.solver.newton d ∧
      DirFor (e.model t.cd.iterate (H o.solver.cd) o.solver.cd.penalty) o.solver.trial (segment c d α) ∧
      segment c d α ⬝ᵥ segment c d α ≤ t.trustRadius * t.trustRadius ∧
      (∀ j : Fin e.numVars, e.bounds.varsLb.value j ≤ o.point.value j ∧ o.point.value j ≤ e.bounds.varsUb.value j ∧
        o.point.value j = min (max (t.cd.iterate.primal.value j + segment c d α j) (e.bounds.varsLb.value j)) (e.bounds.varsUb.value j)) ∧
      ((∀ j : Fin e.numVars, (t.cd.iterate.primal.value j + c j = e.bounds.varsUb.value j → d j ≤ c j) ∧
          (t.cd.iterate.primal.value j + c j = e.bounds.varsLb.value j → c j ≤ d j)) →
        ∀ j : Fin e.numVars, o.point.value j = t.cd.iterate.primal.value j + segment c d α j) ∧
      o.merit = (e.model t.cd.iterate (H o.solver.cd) o.solver.cd.penalty).quad (segment c d α) ∧
      o.merit ≤ (e.model t.cd.iterate (H o.solver.cd) o.solver.cd.penalty).quad c +
        s.ls.lsEta * (α * (e.model t.cd.iterate (H o.solver.cd) o.solver.cd.penalty).slope c d) ∧
      (e.model t.cd.iterate (H o.solver.cd) o.solver.cd.penalty).quad 0 = o.solver.cd.merit ∧
      (o.solver.cd.performedReset = false → (e.model t.cd.iterate (H o.solver.cd) o.solver.cd.penalty).quad c ≤ o.solver.cd.merit) := by
  obtain ⟨t', full, mv, d0, τ, N, d, q, hd, a1, a2, a3, a5, a7, n1, n2, n3, h4, x, h5, rfl⟩ := newton_unfold hb hnf hz hc hs ht hfin hn hN hup h
  have hit := ht.cd.iterate.1
  obtain ⟨p, p1, p2⟩ := hd.opt
  obtain ⟨J', j1, j2⟩ := hd.same
  have hrest := hd.rest
  have hprim : t'.cd.iterate.primal = t.cd.iterate.primal := by rw [j1]
  unfold TrialSolver.search at h4
  rw [hx, if_neg (by decide)] at h4
  have hf : TrialFor (e.model t.cd.iterate (H t'.cd) t'.cd.penalty) (t'.cd.merits e t'.combined) ⟨t'.cd.iterate.primal, e.bounds.varsLb, e.bounds.varsUb⟩ s.ls
      t'.cauchy N (τ • d0) d t'.newtonWork t'.multWork t'.trial := by
    refine ⟨n1, envFor_model hb hit hz _ j1 _, a3, n2, ?_, ⟨hb.sized.wvl, hb.sized.dvl⟩, ⟨hb.sized.wvu, hb.sized.dvu⟩, hs.lsPos, hs.lsLe, hs.cutoff, ?_, ?_, ?_, ?_, ?_, ?_⟩
    · rw [hprim]; exact hit.primal
    · rw [hrest]; exact ht.newtonWork
    · rw [hrest]; exact ht.multWork
    · rw [hrest]; exact ht.trial.1
    · rw [hrest]; exact ht.trial.2.1
    · rw [hrest]; exact ht.trial.2.2
    · intro i
      have hi := box_smul hit hd.box a1 a2 i
      show dense e.numVars e.bounds.varsLb i ≤ dense e.numVars t'.cd.iterate.primal i + _ ∧ dense e.numVars t'.cd.iterate.primal i + _ ≤ _
      rw [hprim]; exact hi
  obtain ⟨b1, b2, b3, b4, b5⟩ := C44_step_partial hf h4
  obtain ⟨x1, x2, x3⟩ := point_spec hb hz hit j1 b3.okP ho h5
  have hval : ∀ j : Fin e.numVars, q.dir.primal.value j = segment (τ • d0) d q.alpha j := fun j => congrFun b3.primal j
  refine ⟨p, τ, q.alpha, τ • d0, d, p1, a1, a2, by rw [p2], b1, b2, by simp, a3, n2, b3, segment_norm a5 n3 b1 b2,
    fun j => ⟨(x2 j j.isLt).1, (x2 j j.isLt).2, ?_⟩, fun hact j => ?_, b4, b5, hd.zero, a7⟩
  · show x.value j = _
    rw [x3 j j.isLt, hval]
  · show x.value j = _
    have hbd := C44_bounds_partial hf h4 (fun i => by
      have e1 : dense e.numVars t'.cd.iterate.primal i = t.cd.iterate.primal.value i := by rw [hprim]; rfl
      show (dense e.numVars t'.cd.iterate.primal i + _ = _ → _) ∧ (dense e.numVars t'.cd.iterate.primal i + _ = _ → _)
      rw [e1]; exact hact i) j
    have e1 : dense e.numVars t'.cd.iterate.primal j = t.cd.iterate.primal.value j := by rw [hprim]; rfl
    change dense e.numVars e.bounds.varsLb j ≤ dense e.numVars t'.cd.iterate.primal j + dense e.numVars q.dir.primal j ∧
      dense e.numVars t'.cd.iterate.primal j + dense e.numVars q.dir.primal j ≤ dense e.numVars e.bounds.varsUb j at hbd
    rw [e1, b3.primal] at hbd
    rw [x3 j j.isLt, hval]
    exact min_max_eq hbd.1 hbd.2

/-- C77. With the exact line search, the trial step minimises the quadratic model between Cauchy and Newton step, so that the predicted merit value is not larger than
the current one. (Missing: what is missing in C45, C43 and C76. And the step may leave the bounds of the variables, see `C77_exact_violated`.) -/
theorem C77_exact_partial (hb : LpBounds e) (hnf : NoFixed e) (hz : e.zeroEps = 0) (hc : c.Ok e H) (hs : s.Ok) (ht : t.Ok e J0 s0)
    (hfin : FinLin e t.cd.iterate t.cd.radius) (hn : (s.quadratic && s.newton) = true) (hx : s.exact = true) (hsort : SortOk c.sort)
    (hN : NewtonOk e H c s t) (hup : dense e.numVars o.solver.cd.step ≠ 0 → dense e.numVars o.solver.cauchy.primal ≠ 0)
    (hcov : ∀ c d, DirFor (e.model t.cd.iterate (H o.solver.cd) o.solver.cd.penalty) o.solver.cauchy c →
      DirFor (e.model t.cd.iterate (H o.solver.cd) o.solver.cd.penalty) o.solver.newton d →
      Covered (fun i => (e.model t.cd.iterate (H o.solver.cd) o.solver.cd.penalty).c i + ((e.model t.cd.iterate (H o.solver.cd) o.solver.cd.penalty).J *ᵥ c) i -
          (e.model t.cd.iterate (H o.solver.cd) o.solver.cd.penalty).ub i) ((e.model t.cd.iterate (H o.solver.cd) o.solver.cd.penalty).J *ᵥ (d - c)) ∧
      Covered (fun i => (e.model t.cd.iterate (H o.solver.cd) o.solver.cd.penalty).lb i - ((e.model t.cd.iterate (H o.solver.cd) o.solver.cd.penalty).c i +
          ((e.model t.cd.iterate (H o.solver.cd) o.solver.cd.penalty).J *ᵥ c) i)) (-((e.model t.cd.iterate (H o.solver.cd) o.solver.cd.penalty).J *ᵥ (d - c))))
    (h : t.compute e c s out = some o) :
    ∃ (α : K) (c d : Fin e.numVars → K), 0 ≤ α ∧ α ≤ 1 ∧ (o.failed = true ↔ α = 0) ∧
      DirFor (e.model t.cd.iterate (H o.solver.cd) o.solver.cd.penalty) o.solver.cauchy c ∧
      DirFor (e.model t.cd.iterate (H o.solver.cd) o.solver.cd.penalty) o.solver.newton d ∧
      DirFor (e.model t.cd.iterate (H o.solver.cd) o.solver.cd.penalty) o.solver.trial (segment c d α) ∧
      segment c d α ⬝ᵥ segment c d α ≤ t.trustRadius * t.trustRadius ∧
      o.merit = (e.model t.cd.iterate (H o.solver.cd) o.solver.cd.penalty).quad (segment c d α) ∧
      (∀ β : K, 0 ≤ β → β ≤ 1 → o.merit ≤ (e.model t.cd.iterate (H o.solver.cd) o.solver.cd.penalty).quad (segment c d β)) ∧
      (o.solver.cd.performedReset = false → o.merit ≤ o.solver.cd.merit) := by
  obtain ⟨t', full, mv, d0, τ, N, d, q, hd, a1, a2, a3, a5, a7, n1, n2, n3, h4, x, h5, rfl⟩ := newton_unfold hb hnf hz hc hs ht hfin hn hN hup h
  have hit := ht.cd.iterate.1
  obtain ⟨J', j1, j2⟩ := hd.same
  have hg : t'.cd.iterate.objGrad = t.cd.iterate.objGrad := by rw [j1]
  unfold TrialSolver.search at h4
  rw [hx, if_pos rfl] at h4
  obtain ⟨u1, u2⟩ := hcov _ _ a3 n2
  obtain ⟨r, b1, b2, b3, b4, b5, b6⟩ := C45_minimum_partial (T := t'.trial) (work := t'.newtonWork) n1 (envFor_model hb hit hz _ j1 t'.combined) a3 n2
    (grad := t'.cd.iterate.objGrad) (by rw [hg]; exact ht.cd.grad) (by rw [hg]; rfl) hsort u1 u2
  obtain rfl : r = q := by rw [h4] at b1; injection b1 with b1; exact b1.symm
  refine ⟨r.alpha, τ • d0, d, b2, b3, by simp, a3, n2, b4, segment_norm a5 n3 b2 b3, b5, b6, fun hr => ?_⟩
  have := b6 0 le_rfl zero_le_one
  rw [sub_zero, one_smul, zero_smul, add_zero] at this
  exact this.trans (a7 hr)

/-! ### Dynamic functions -/

/-- C77. For dynamic functions, a trial point is only returned if the error estimate of the function is at most 0.4 times the accepted reduction ratio times the predicted
reduction. Direction, predicted value and penalty parameter are then those computed after the last evaluation of the function, whose estimate this is, as for
any other function, and the trial point is that of the direction, projected onto the bounds. -/
theorem C77_refine {calls : Nat → TrialCalls K} {eval : Nat → K → DynValues K} {fuel : Nat} {err err' : K}
    (h : t.computeDyn e c calls eval s fuel err out = some (o, err')) :
    err' ≤ 2 / 5 * s.acceptedReduction * (o.solver.cd.merit - o.merit) ∧
      (∃ w, trialFromStep e.zeroEps e.bounds o.solver.cd.iterate.primal o.solver.trial.primal o.solver.initial w = some o.point) ∧
      ∃ t2 c2 w o2, t2.compute e c2 s w = some o2 ∧ o.solver = o2.solver ∧ o.merit = o2.merit ∧ o.full = o2.full ∧
        (t2 = t ∧ c2 = c ∧ err' = err ∨
          ∃ (t1 : TrialSolver K) (k : Nat) (b : K), t1.refine e (eval k b) = some t2 ∧ c2 = calls k ∧ err' = (eval k b).err) := by
  unfold TrialSolver.computeDyn at h
  obtain ⟨o1, h1, h⟩ := Option.bind_eq_some_iff.mp h
  have key : ∀ fuel k er o1, (∃ t2 c2 w o2, t2.compute e c2 s w = some o2 ∧ o1.solver = o2.solver ∧ o1.merit = o2.merit ∧ o1.full = o2.full ∧
        (t2 = t ∧ c2 = c ∧ er = err ∨ ∃ (t1 : TrialSolver K) (k : Nat) (b : K), t1.refine e (eval k b) = some t2 ∧ c2 = calls k ∧ er = (eval k b).err)) →
      TrialSolver.refineLoop e calls eval s fuel k er o1 = some (o, err') →
      err' ≤ requiredErrorBound s.acceptedReduction (o.solver.cd.merit - o.merit) ∧
      (∃ w, trialFromStep e.zeroEps e.bounds o.solver.cd.iterate.primal o.solver.trial.primal o.solver.initial w = some o.point) ∧
      ∃ t2 c2 w o2, t2.compute e c2 s w = some o2 ∧ o.solver = o2.solver ∧ o.merit = o2.merit ∧ o.full = o2.full ∧
        (t2 = t ∧ c2 = c ∧ err' = err ∨ ∃ (t1 : TrialSolver K) (k : Nat) (b : K), t1.refine e (eval k b) = some t2 ∧ c2 = calls k ∧ err' = (eval k b).err) := by
    intro fuel
    induction fuel with
    | zero => intro k er o1 _ h; simp [TrialSolver.refineLoop] at h
    | succ fuel ih =>
      intro k er o1 hi h
      rw [TrialSolver.refineLoop] at h
      split at h
      · rename_i hle
        obtain ⟨x, hx, h⟩ := Option.map_eq_some_iff.mp h
        injection h with h1 h2
        subst h1 h2
        exact ⟨hle, ⟨_, hx⟩, hi⟩
      · obtain ⟨t2, h2, h⟩ := Option.bind_eq_some_iff.mp h
        obtain ⟨o2, h3, h⟩ := Option.bind_eq_some_iff.mp h
        exact ih _ _ { o2 with failed := o1.failed } ⟨t2, _, _, o2, h3, rfl, rfl, rfl, .inr ⟨_, _, _, h2, rfl, rfl⟩⟩ h
  exact key _ _ _ _ ⟨t, c, out, o1, h1, rfl, rfl, rfl, .inl ⟨rfl, rfl, rfl⟩⟩ h

/-- evaluated again, the function returns the values it had -/
def DynValues.Same (d : DynValues K) (it : Iterate K) : Prop := d.objVal = it.objVal ∧ d.objGrad = it.objGrad ∧ d.consVal = it.consVal ∧ d.consJac = it.consJac

/-- at a point that the linear model cannot improve, the reduction predicted is zero, and the solver is in the same situation after the next evaluation -/
theorem stuck_step (hb : LpBounds e) (hnf : NoFixed e) (hz : e.zeroEps = 0) (hc : c.Ok e H) (hs : s.Ok) (ht : t.Ok e J0 s0)
    (hfin : FinLin e t.cd.iterate t.cd.radius) (hq : s.quadratic = false) (hfeas : t.cd.feasRes ≤ s.feasTol)
    (hres : t.cd.penalty ≤ 1000 * (t.cd.dualNorm + 1))
    (hopt : OptStep e t.cd.iterate t.cd.radius (some t.cd.iterate.objGrad) t.cd.penalty fun _ => 0) (ho : out.dim = e.numVars)
    (h : t.compute e c s out = some o) :
    o.solver.cd.merit - o.merit = 0 ∧ o.point.dim = e.numVars ∧ ∀ d : DynValues K, d.Same t.cd.iterate → ∃ t2, o.solver.refine e d = some t2 ∧
      t2.Ok e J0 s0 ∧ t2.cd.iterate = t.cd.iterate ∧ t2.cd.radius = t.cd.radius ∧ t2.cd.feasRes = t.cd.feasRes ∧ t2.cd.penalty = t.cd.penalty := by
  have hn : (s.quadratic && s.newton) = false := by rw [hq]; rfl
  have h' := h
  unfold TrialSolver.compute at h
  rw [hn, if_neg (by decide)] at h
  unfold TrialSolver.simple at h
  obtain ⟨⟨t', full, mv⟩, h1, h⟩ := Option.bind_eq_some_iff.mp h
  dsimp only at h
  obtain ⟨lin, h2, h⟩ := Option.bind_eq_some_iff.mp h
  obtain ⟨merit, h3, h⟩ := Option.bind_eq_some_iff.mp h
  obtain ⟨T, h4, h⟩ := Option.bind_eq_some_iff.mp h
  obtain ⟨x, h5, h⟩ := Option.map_eq_some_iff.mp h
  have hit := ht.cd.iterate.1
  obtain ⟨d0, hd⟩ := direction_spec hb hnf hz hc hs ht hfin h1
  obtain ⟨b, hdir⟩ := hd.dir
  obtain ⟨f1, f2, f3⟩ := compute_frame hdir
  obtain ⟨J', j1, j2⟩ := hd.same
  have hpen : t'.cd.penalty = t.cd.penalty ∧ t'.cd.performedReset = false := by
    obtain ⟨g1, g2, -⟩ := C76_penalty hb hnf hc.lp ht.cd hdir
    rcases Nat.eq_zero_or_pos e.numCons with hm | hm
    · exact g1 hm
    · have := g2 hm hfeas
      rwa [if_neg (fun hh => absurd hres (not_le.mpr hh.2))] at this
  obtain ⟨p, τ, d, k1, k2, k3, k4, k5, k6, k7, k8, k9, k10, k11, k12, k13⟩ := C77_simple_partial hb hnf hz hc hs ht hfin ho hn h'
  subst h
  dsimp only at k1 k6 k7 k10 k11 k12
  rw [hpen.2, if_neg (by decide), hpen.1] at k1
  rw [hq, if_neg (by decide)] at k10
  rw [k5 hq, one_smul] at k4
  have hdim : x.dim = e.numVars := (point_spec hb hz hit j1 k6.okP ho h5).1.2
  refine ⟨?_, hdim, fun D hD => ?_⟩
  · show t'.cd.merit - merit = 0
    have e1 : (e.model t.cd.iterate (H t'.cd) t'.cd.penalty).lin d = (e.model t.cd.iterate (H t'.cd) t'.cd.penalty).lin (fun _ => 0) := by
      rw [k4, model_lin _ _ (hfin p k1.1), hpen.1, model_lin (d := fun _ => 0) _ _ (hfin _ hopt.1)]
      rw [le_antisymm (k1.2 _ hopt.1) (hopt.2 _ k1.1)]
    have e2 : (e.model t.cd.iterate (H t'.cd) t'.cd.penalty).lin (fun _ => 0) = (e.model t.cd.iterate (H t'.cd) t'.cd.penalty).quad 0 := by
      unfold LocalModel.quad
      rw [zero_dotProduct, mul_zero, add_zero]; rfl
    rw [k10, e1, e2, k11, sub_self]
  · obtain ⟨q1, q2, q3, q4⟩ := hD
    have hitD : ({ t'.cd.iterate with objVal := D.objVal, objGrad := D.objGrad, consVal := D.consVal, consJac := D.consJac } : Iterate K) = t.cd.iterate := by
      rw [q1, q2, q3, q4, j1]
    have hmer := ht.cd.merit
    refine ⟨{ t' with trial := T, cd := { t'.cd with iterate := t.cd.iterate, merit := t.cd.merit } }, ?_, ?_, rfl, f1, f2, hpen.1⟩
    · unfold TrialSolver.refine
      dsimp only
      rw [hitD, hpen.1, hmer]
      rfl
    · have hrest := hd.rest
      have hcd : (⟨t'.cd.cauchy, t.cd.iterate, t'.cd.work, t'.cd.step, t.cd.radius, t.cd.penalty, t.cd.merit, t.cd.feasRes, t.cd.allowReset, false⟩ : CauchyDir K).Ok e J0 s0 :=
        ⟨⟨_, hd.lp⟩, ht.cd.iterate, ht.cd.grad, hd.work, ht.cd.far, ht.cd.penalty, hmer, rfl⟩
      obtain ⟨w1, w2, -⟩ := hd.simple hq
      refine ⟨?_, by rw [hrest]; exact ht.radius, ⟨w1.okP.2, w1.okC, w1.okH⟩, ⟨k6.okP.2, k6.okC.2, k6.okH.2⟩, by rw [hrest]; exact ht.newtonWork,
        by rw [hrest]; exact ht.multWork⟩
      have : ({ t'.cd with iterate := t.cd.iterate, merit := t.cd.merit } : CauchyDir K) =
          ⟨t'.cd.cauchy, t.cd.iterate, t'.cd.work, t'.cd.step, t.cd.radius, t.cd.penalty, t.cd.merit, t.cd.feasRes, t.cd.allowReset, false⟩ := by
        rw [← f1, ← f2, ← f3, ← hpen.1, ← hpen.2]
      show ({ t'.cd with iterate := t.cd.iterate, merit := t.cd.merit } : CauchyDir K).Ok e J0 s0
      rw [this]; exact hcd

/-- the loop does not end at a point that the linear model cannot improve as long as the error estimate is positive -/
theorem refine_stuck (hb : LpBounds e) (hnf : NoFixed e) (hz : e.zeroEps = 0) (hc : c.Ok e H) (hs : s.Ok) (ht : t.Ok e J0 s0)
    (hfin : FinLin e t.cd.iterate t.cd.radius) (hq : s.quadratic = false) (hfeas : t.cd.feasRes ≤ s.feasTol)
    (hres : t.cd.penalty ≤ 1000 * (t.cd.dualNorm + 1))
    (hopt : OptStep e t.cd.iterate t.cd.radius (some t.cd.iterate.objGrad) t.cd.penalty fun _ => 0) (ho : out.dim = e.numVars)
    {calls : Nat → TrialCalls K} (hcs : ∀ k, (calls k).Ok e H) {eval : Nat → K → DynValues K} (hev : ∀ k b, (eval k b).Same t.cd.iterate ∧ 0 < (eval k b).err)
    {err : K} (herr : 0 < err) (fuel : Nat) : t.computeDyn e c calls eval s fuel err out = none := by
  have key : ∀ fuel k (c : TrialCalls K) (t1 : TrialSolver K) (w : Vec K) (er : K) (o1 o2 : TrialPt K), c.Ok e H → t1.Ok e J0 s0 → t1.cd.iterate = t.cd.iterate →
      t1.cd.radius = t.cd.radius → t1.cd.feasRes = t.cd.feasRes → t1.cd.penalty = t.cd.penalty → w.dim = e.numVars → 0 < er →
      t1.compute e c s w = some o1 → o2.solver = o1.solver → o2.merit = o1.merit → o2.point = o1.point → TrialSolver.refineLoop e calls eval s fuel k er o2 = none := by
    intro fuel
    induction fuel with
    | zero => intros; rfl
    | succ fuel ih =>
      intro k c t1 w er o1 o2 hc1 ht1 e1 e2 e3 e4 hw her h e5 e6 e7
      obtain ⟨s1, s2, s3⟩ := stuck_step hb hnf hz hc1 hs ht1 (by rw [e1, e2]; exact hfin) hq (by rw [e3]; exact hfeas)
        (by unfold CauchyDir.dualNorm; rw [e4, e1]; exact hres) (by rw [e1, e2, e4]; exact hopt) hw h
      obtain ⟨t2, g1, g2, g3, g4, g5, g6⟩ := s3 (eval k 0) (by rw [e1]; exact (hev k 0).1)
      have hb0 : requiredErrorBound s.acceptedReduction (o2.solver.cd.merit - o2.merit) = 0 := by
        rw [e5, e6, s1]; unfold requiredErrorBound; rw [mul_zero]
      rw [TrialSolver.refineLoop]
      rw [hb0, if_neg (not_le.mpr her), e5, g1, Option.bind_some]
      cases hcomp : t2.compute e (calls k) s o2.point with
      | none => rfl
      | some o3 =>
        rw [Option.bind_some]
        exact ih (k + 1) (calls k) t2 o2.point _ o3 _ (hcs k) g2 (g3.trans e1) (g4.trans e2) (g5.trans e3) (g6.trans e4) (by rw [e7]; exact s2) (hev k 0).2 hcomp rfl rfl rfl
  unfold TrialSolver.computeDyn
  cases h : t.compute e c s out with
  | none => rfl
  | some o1 => exact key fuel 0 c t out err o1 o1 hc ht rfl rfl rfl rfl ho herr h rfl rfl rfl

/-! ### samples and violations -/

theorem exTp_newton {D : Dir ℚ} {x : ℚ} {cd : CauchyDir ℚ} (hP : D.primal = ⟨1, 1, [(0, x)]⟩) (hC : D.consJac = ⟨1, 1, [(0, x)]⟩)
    (hH : D.hess = ⟨1, 1, [(0, x / 2)]⟩) (hg : D.objGrad = -x) {pen : ℚ} :
    DirFor (exTpEnv.model exTpDir.iterate (exTpHess cd) pen) D (fun _ => x) := by
  have hj : exLpMat.value 0 0 = 1 := by decide +kernel
  have hgr : (⟨1, 1, [(0, -1)]⟩ : Vec ℚ).value 0 = -1 := by decide +kernel
  refine ⟨by rw [hP]; exact exVok x, by rw [hC]; exact exVok x, by rw [hH]; exact exVok _, ?_, ?_, ?_, ?_⟩
  · rw [hP]; funext i; obtain rfl : i = (0 : Fin 1) := Subsingleton.elim (α := Fin 1) _ _; exact congrFun (exLineDense x) 0
  · rw [hg]
    show -x = ∑ j : Fin 1, (⟨1, 1, [(0, -1)]⟩ : Vec ℚ).value j * x
    rw [Fin.sum_univ_one]
    show -x = (⟨1, 1, [(0, -1)]⟩ : Vec ℚ).value 0 * x
    rw [hgr]; ring
  · rw [hC]; funext i; obtain rfl : i = (0 : Fin 1) := Subsingleton.elim (α := Fin 1) _ _
    refine (congrFun (exLineDense x) 0).trans ?_
    show x = ∑ j : Fin 1, exLpMat.value 0 j * x
    rw [Fin.sum_univ_one]
    show x = exLpMat.value 0 0 * x
    rw [hj, one_mul]
  · rw [hH]; funext i; obtain rfl : i = (0 : Fin 1) := Subsingleton.elim (α := Fin 1) _ _
    refine (congrFun (exLineDense (x / 2)) 0).trans ?_
    show x / 2 = ∑ j : Fin 1, (1/2 : ℚ) * x
    rw [Fin.sum_univ_one]; ring

theorem exTp_newtonOk (a b : Bool) : NewtonOk exTpEnv exTpHess exTpCalls (exTpSettings a b) exTpSolver := by
  intro cd b D N _ hN
  injection hN with hN
  refine ⟨rfl, fun _ => 2, by rw [← hN]; exact exTp_newton rfl rfl (by decide +kernel) rfl, ?_⟩
  show ∑ j : Fin 1, (2 : ℚ) * 2 ≤ 4 * 4
  rw [Fin.sum_univ_one]; norm_num

example : LpBounds exTpEnv ∧ NoFixed exTpEnv ∧ exTpCalls.Ok exTpEnv exTpHess ∧ (exTpSettings false false).Ok ∧ exTpSolver.Ok exTpEnv (fun _ _ => 0) exLpState ∧
    FinLin exTpEnv exTpSolver.cd.iterate exTpSolver.cd.radius ∧
    (exTpSolver.compute exTpEnv exTpCalls (exTpSettings false false) ⟨1, 0, []⟩).map (fun o => (o.point.ents, o.merit, o.solver.cd.merit, o.solver.cd.performedReset)) =
      some ([(0, 1/2)], -1/2, 0, false) :=
  ⟨exTpEnv_bounds, exTpEnv_noFixed, exTpCalls_ok, exTpSettings_ok _ _, exTpSolver_ok, exTp_finLin, by decide +kernel⟩

example : NewtonOk exTpEnv exTpHess exTpCalls (exTpSettings true false) exTpSolver ∧
    ∃ o, exTpSolver.compute exTpEnv exTpCalls (exTpSettings true false) ⟨1, 0, []⟩ = some o ∧
      (dense 1 o.solver.cd.step ≠ 0 → dense 1 o.solver.cauchy.primal ≠ 0) ∧ o.point.ents = [(0, 1)] ∧ o.merit = -3/4 ∧ o.failed = false := by
  have h : (exTpSolver.compute exTpEnv exTpCalls (exTpSettings true false) ⟨1, 0, []⟩).map
      (fun o => (o.point.ents, o.merit, o.failed, o.solver.cauchy.primal.value 0)) = some ([(0, 1)], -3/4, false, 1/2) := by decide +kernel
  obtain ⟨o, h1, h2⟩ := Option.map_eq_some_iff.mp h
  simp only [Prod.mk.injEq] at h2
  refine ⟨exTp_newtonOk _ _, o, h1, fun _ h0 => ?_, h2.1, h2.2.1, h2.2.2.1⟩
  have := congrFun h0 0
  change o.solver.cauchy.primal.value 0 = 0 at this
  rw [h2.2.2.2] at this
  norm_num at this

theorem exTp_covered {o : TrialPt ℚ} (hv : o.solver.cauchy.primal.value 0 = 1/2) (c d : Fin exTpEnv.numVars → ℚ)
    (hc : DirFor (exTpEnv.model exTpSolver.cd.iterate (exTpHess o.solver.cd) o.solver.cd.penalty) o.solver.cauchy c) :
    Covered (fun i => (exTpEnv.model exTpSolver.cd.iterate (exTpHess o.solver.cd) o.solver.cd.penalty).c i +
        ((exTpEnv.model exTpSolver.cd.iterate (exTpHess o.solver.cd) o.solver.cd.penalty).J *ᵥ c) i -
          (exTpEnv.model exTpSolver.cd.iterate (exTpHess o.solver.cd) o.solver.cd.penalty).ub i)
        ((exTpEnv.model exTpSolver.cd.iterate (exTpHess o.solver.cd) o.solver.cd.penalty).J *ᵥ (d - c)) ∧
      Covered (fun i => (exTpEnv.model exTpSolver.cd.iterate (exTpHess o.solver.cd) o.solver.cd.penalty).lb i -
          ((exTpEnv.model exTpSolver.cd.iterate (exTpHess o.solver.cd) o.solver.cd.penalty).c i +
          ((exTpEnv.model exTpSolver.cd.iterate (exTpHess o.solver.cd) o.solver.cd.penalty).J *ᵥ c) i))
        (-((exTpEnv.model exTpSolver.cd.iterate (exTpHess o.solver.cd) o.solver.cd.penalty).J *ᵥ (d - c))) := by
  set q := exTpEnv.model exTpSolver.cd.iterate (exTpHess o.solver.cd) o.solver.cd.penalty with hq
  have h0 : c (0 : Fin 1) = 1/2 := by rw [← hv]; exact (congrFun hc.primal (0 : Fin 1)).symm
  have hJ : ∀ i, (q.J *ᵥ c) i = 1/2 := by
    intro i
    obtain rfl : i = (0 : Fin 1) := Subsingleton.elim (α := Fin 1) _ _
    show ∑ j : Fin 1, exLpMat.value 0 j * c j = 1/2
    rw [Fin.sum_univ_one, h0]
    show exLpMat.value 0 0 * (1/2) = 1/2
    decide +kernel
  have hcv : ∀ i, q.c i = 0 ∧ q.ub i = 5 ∧ q.lb i = -5 := by
    intro i
    obtain rfl : i = (0 : Fin 1) := Subsingleton.elim (α := Fin 1) _ _
    show (⟨1, 0, []⟩ : Vec ℚ).value 0 = 0 ∧ (⟨1, 1, [(0, 5)]⟩ : Vec ℚ).value 0 = 5 ∧ (⟨1, 1, [(0, -5)]⟩ : Vec ℚ).value 0 = -5
    decide +kernel
  constructor
  · intro i
    obtain ⟨a, b, -⟩ := hcv i
    have e1 : q.c i + (q.J *ᵥ c) i - q.ub i < 0 := by rw [hJ, a, b]; norm_num
    exact ⟨fun _ => e1.le, fun h => absurd (h i le_rfl) e1.ne⟩
  · intro i
    obtain ⟨a, -, b⟩ := hcv i
    have e1 : q.lb i - (q.c i + (q.J *ᵥ c) i) < 0 := by rw [hJ, a, b]; norm_num
    exact ⟨fun _ => e1.le, fun h => absurd (h i le_rfl) e1.ne⟩

example : ∃ o, exTpSolver.compute exTpEnv exTpCalls (exTpSettings true true) ⟨1, 0, []⟩ = some o ∧ o.solver.cauchy.primal.value 0 = 1/2 ∧ o.merit = -1 := by
  have h : (exTpSolver.compute exTpEnv exTpCalls (exTpSettings true true) ⟨1, 0, []⟩).map (fun o => (o.solver.cauchy.primal.value 0, o.merit)) = some (1/2, -1) := by
    decide +kernel
  obtain ⟨o, h1, h2⟩ := Option.map_eq_some_iff.mp h
  simp only [Prod.mk.injEq] at h2
  exact ⟨o, h1, h2⟩

example : ∃ o, exTpSolver.computeDyn exTpEnv exTpCalls (fun _ => exTpCalls) (fun _ _ => ⟨0, ⟨1, 1, [(0, -1)]⟩, ⟨1, 0, []⟩, exLpMat, 1/10^9⟩) (exTpSettings true false) 2 1 ⟨1, 0, []⟩
    = some o :=
  Option.isSome_iff_exists.mp (by decide +kernel)

/-- With the exact line search, which is not the default, the trial step may leave the bounds of the variables: that search, unlike the other, does not look at
them. The trial point is projected, but the predicted merit value is that of the step before. Here `-x + x² / 4` is minimised with `-1 ≤ x ≤ 1`, starting at 0: the
trial point is 1, where the model has value -3/4, and the value predicted is -1, that of the Newton step 2. So the predicted reduction, with which the actual one is
compared, is too large. -/
theorem C77_exact_violated : ∃ (e : LpEnv ℚ) (H : CauchyDir ℚ → Matrix (Fin e.numVars) (Fin e.numVars) ℚ) (c : TrialCalls ℚ) (s : TrialSettings ℚ) (t : TrialSolver ℚ)
    (out : Vec ℚ) (o : TrialPt ℚ), LpBounds e ∧ NoFixed e ∧ c.Ok e H ∧ s.Ok ∧ t.Ok e (fun _ _ => 0) exLpState ∧ FinLin e t.cd.iterate t.cd.radius ∧ NewtonOk e H c s t ∧
      SortOk c.sort ∧ out.dim = e.numVars ∧ s.exact = true ∧ t.compute e c s out = some o ∧
      o.merit < (e.model t.cd.iterate (H o.solver.cd) o.solver.cd.penalty).quad (fun j => o.point.value j - t.cd.iterate.primal.value j) := by
  have h : (exTpSolver.compute exTpEnv exTpCalls (exTpSettings true true) ⟨1, 0, []⟩).map (fun o => (o.point.value 0, o.merit, o.solver.cd.penalty)) = some (1, -1, 10) := by
    decide +kernel
  obtain ⟨o, h1, h2⟩ := Option.map_eq_some_iff.mp h
  simp only [Prod.mk.injEq] at h2
  obtain ⟨v1, v2, v3⟩ := h2
  refine ⟨exTpEnv, exTpHess, exTpCalls, exTpSettings true true, exTpSolver, ⟨1, 0, []⟩, o, exTpEnv_bounds, exTpEnv_noFixed, exTpCalls_ok, exTpSettings_ok _ _,
    exTpSolver_ok, exTp_finLin, exTp_newtonOk _ _, exSortOk, rfl, rfl, h1, ?_⟩
  have hv : (fun j : Fin exTpEnv.numVars => o.point.value j - exTpSolver.cd.iterate.primal.value j) = fun _ => 1 := by
    funext i
    obtain rfl : i = (0 : Fin 1) := Subsingleton.elim (α := Fin 1) _ _
    show o.point.value 0 - (⟨1, 0, []⟩ : Vec ℚ).value 0 = 1
    rw [v1]; decide +kernel
  rw [hv, v2, v3]
  show -1 < (exTpEnv.model exTpDir.iterate (fun _ _ => 1/2) 10).quad fun _ => 1
  decide +kernel

/-- For dynamic functions the trial point is computed again, with a smaller error bound, until the error estimate is small compared with the predicted reduction. If this
reduction is zero, as at a point the linear model cannot improve, the error bound requested is zero, and for any function whose error estimates are positive
the loop never ends (there is no limit on the number of passes, and no check of the time). Here `-x` is minimised with `-1 ≤ x ≤ 1`, at 1. -/
theorem C77_refine_violated : ∃ (e : LpEnv ℚ) (H : CauchyDir ℚ → Matrix (Fin e.numVars) (Fin e.numVars) ℚ) (c : TrialCalls ℚ) (s : TrialSettings ℚ) (t : TrialSolver ℚ)
    (out : Vec ℚ), LpBounds e ∧ NoFixed e ∧ c.Ok e H ∧ s.Ok ∧ t.Ok e (fun _ _ => 0) exLpState ∧ out.dim = e.numVars ∧ (∃ o, t.compute e c s out = some o) ∧
      ∀ eval : Nat → ℚ → DynValues ℚ, (∀ k b, (eval k b).Same t.cd.iterate ∧ 0 < (eval k b).err) → ∀ err > 0, ∀ fuel,
        t.computeDyn e c (fun _ => c) eval s fuel err out = none := by
  refine ⟨exTpEnv, exTpHess, exTpOptCalls, exTpSettings false false, exTpOptSolver, ⟨1, 0, []⟩, exTpEnv_bounds, exTpEnv_noFixed, exTpOptCalls_ok, exTpSettings_ok _ _,
    exTpOptSolver_ok, rfl, Option.isSome_iff_exists.mp (by decide +kernel), fun eval hev err herr fuel => ?_⟩
  refine refine_stuck exTpEnv_bounds exTpEnv_noFixed rfl exTpOptCalls_ok (exTpSettings_ok _ _) exTpOptSolver_ok ?_ rfl (by decide +kernel) (by decide +kernel) ?_ rfl
    (fun _ => exTpOptCalls_ok) hev herr fuel
  · exact exTpOpt_finLin
  · obtain ⟨⟨cd, b⟩, hc⟩ : ∃ r, exTpOptDir.compute exTpEnv exTpOptCalls.lp (exTpSettings false false).tol (exTpSettings false false).feasTol = some r :=
      Option.isSome_iff_exists.mp (by decide +kernel)
    have hb : b = 0 := by
      have : (exTpOptDir.compute exTpEnv exTpOptCalls.lp (exTpSettings false false).tol (exTpSettings false false).feasTol).map Prod.snd = some 0 := by decide +kernel
      rw [hc] at this
      injection this
    exact (C76_criticality exTpEnv_bounds exTpEnv_noFixed exTpOptCalls_ok.lp exTpOptDir_ok hc).2.mp hb

/-- a Newton step that does not improve the Cauchy step -/
def exTpBad : TrialCalls ℚ :=
  { exTpCalls with newton := fun _ _ => some ⟨⟨1, 1, [(0, -1)]⟩, 1, ⟨1, 1, [(0, -1)]⟩, ⟨1, 1, [(0, -1/2)]⟩⟩ }

/-- For dynamic functions, a failed Newton step is reported if the step computed first failed, although the trial step returned is another one. (The count is only
displayed.) -/
theorem C77_failed_violated : ∃ (e : LpEnv ℚ) (c c' : TrialCalls ℚ) (s : TrialSettings ℚ) (t : TrialSolver ℚ) (out : Vec ℚ) (eval : Nat → ℚ → DynValues ℚ) (o : TrialPt ℚ) (err : ℚ),
    c.Ok e (fun _ _ _ => 1/2) ∧ c'.Ok e (fun _ _ _ => 1/2) ∧ s.Ok ∧ t.Ok e (fun _ _ => 0) exLpState ∧ t.computeDyn e c (fun _ => c') eval s 2 1 out = some (o, err) ∧
      o.failed = true ∧ o.solver.trial.primal.ents ≠ o.solver.cauchy.primal.ents := by
  have h : (exTpSolver.computeDyn exTpEnv exTpBad (fun _ => exTpCalls)
      (fun _ _ => ⟨0, ⟨1, 1, [(0, -1)]⟩, ⟨1, 0, []⟩, exLpMat, 0⟩) (exTpSettings true false) 2 1 ⟨1, 0, []⟩).map
        (fun o => (o.1.failed, decide (o.1.solver.trial.primal.ents = o.1.solver.cauchy.primal.ents))) = some (true, false) := by decide +kernel
  obtain ⟨⟨o, err⟩, h1, h2⟩ := Option.map_eq_some_iff.mp h
  simp only [Prod.mk.injEq, decide_eq_false_iff_not] at h2
  exact ⟨exTpEnv, exTpBad, exTpCalls, exTpSettings true false, exTpSolver, ⟨1, 0, []⟩, _, o, err, ⟨exTpCalls_ok.lp, exTpCalls_ok.hess, exTpCalls_ok.norm⟩, exTpCalls_ok,
    exTpSettings_ok _ _, exTpSolver_ok, h1, h2⟩

end Sleqp

import Verif.Lemmas.Acceptance

/-! C83: a trial step is accepted if and only if it reduces the penalty function by a sufficient part of the predicted reduction. -/

namespace Sleqp
open Finset Matrix
variable {K : Type*} [Field K] [LinearOrder K] [IsStrictOrderedRing K]
variable {e : LpEnv K} {J0 : Nat → Nat → K} {s0 : CauchyLp K} {H : CauchyDir K → Matrix (Fin e.numVars) (Fin e.numVars) K} {c : TrialCalls K} {s : TrialSettings K}
variable {t t1 : TrialSolver K} {out : Vec K} {d : TrialDecision K} {p : StepState K} {it : Iterate K} {eps : K} {func : Vec K → K × Vec K}

/-! ### Functions evaluated exactly -/

/-- C83. If the penalty parameter is kept, then a step (computed without Newton step) that is accepted reduces the penalty function at least by the accepted fraction of
the reduction predicted by the local model at this step (up to the rounding correction `eps`), and one that reaches the predicted value is accepted.
(Missing: a penalty parameter changed while the trial point is computed, see `C83_penalty_violated`; predicted reductions of the size of rounding errors.) -/
theorem C83_simple_partial (hb : LpBounds e) (hnf : NoFixed e) (hz : e.zeroEps = 0) (hc : c.Ok e H) (hs : s.Ok) (hp : t.prepare e p it = some t1) (ht : t1.Ok e J0 s0)
    (hfin : FinLin e it p.lpRadius) (ho : out.dim = e.numVars) (hn : (s.quadratic && s.newton) = false) (he : 0 < eps) (hη : 0 < s.acceptedReduction)
    (hη1 : s.acceptedReduction ≤ 1) (hf : ∀ x, (func x).2.WF ∧ (func x).2.dim = e.numCons) (h : decideExact e c s eps p it func t out = some d)
    (hpen : d.trial.solver.cd.penalty = p.penalty) :
    ∃ (δ : Fin e.numVars → K) (q : LocalModel e.numVars e.numCons K), q = e.model it (H d.trial.solver.cd) p.penalty ∧
      (∀ j : Fin e.numVars, d.trial.point.value j = it.primal.value j + δ j) ∧
      q.quad 0 = e.penaltyFn p.penalty it.objVal it.consVal.value ∧
      ∀ v, v = (if s.quadratic then q.quad δ else q.lin δ) → 2 * eps < q.quad 0 - v →
        (d.accepted = true → s.acceptedReduction * (q.quad 0 - v - eps) + eps ≤ e.penaltyFn p.penalty it.objVal it.consVal.value - d.penaltyAt e p.penalty func ∧
          d.penaltyAt e p.penalty func < e.penaltyFn p.penalty it.objVal it.consVal.value) ∧
        (d.penaltyAt e p.penalty func ≤ v → d.accepted = true) := by
  have hm : meritFunc e.numCons e.bounds it p.penalty = some t1.cd.merit ∧ t1.cd.iterate = it ∧ t1.cd.radius = p.lpRadius := by
    unfold TrialSolver.prepare at hp
    obtain ⟨m, h1, h2⟩ := Option.map_eq_some_iff.mp hp
    subst h2
    exact ⟨h1, rfl, rfl⟩
  have hit : LpIterate e it := hm.2.1 ▸ ht.cd.iterate.1
  obtain ⟨a1, a2, a3, t1', a4, a5⟩ := decideExact_spec hb hit.consVal hf h
  obtain rfl : t1' = t1 := by rw [hp] at a4; injection a4 with a4; exact a4.symm
  obtain ⟨g, τ, δ, b1, b2, b3, b4, b5, b6, b7, b8, b9, b10, b11, b12, b13⟩ := C77_simple_partial hb hnf hz hc hs ht (by rw [hm.2.1, hm.2.2]; exact hfin) ho hn a5
  rw [hm.2.1, hpen] at b10
  have hq0 := model_zero hb hit (H d.trial.solver.cd) hm.1
  rw [meritFunc_penalty hb hit.consVal] at hm
  have hq : (e.model it (H d.trial.solver.cd) p.penalty).quad 0 = e.penaltyFn p.penalty it.objVal it.consVal.value := by
    rw [hq0]; exact (Option.some_inj.mp hm.1).symm
  refine ⟨δ, _, rfl, fun j => ?_, hq, fun v hv hgt => ⟨fun hacc => ?_, fun hle => ?_⟩⟩
  · have := (b7 j).1
    rw [hm.2.1] at this
    exact this
  · rw [← hv] at b10
    rw [b10, a1, a2, hacc] at a3
    rw [hq] at hgt ⊢
    exact C17_accept_decrease_partial he hη hgt a3
  · rw [← hv] at b10
    rw [b10, a1, a2] at a3
    rw [hq] at hgt
    obtain ⟨r, hr⟩ := C17_good_step_accepted he hη1 hgt hle
    rw [hr] at a3
    injection a3 with a3
    exact (congrArg Prod.fst a3).symm

/-- C83. The same with a Newton step (and the line search used by default): the predicted reduction is that of the quadratic model at the trial step, which is between the
Cauchy and the Newton step, and whose end projected onto the bounds of the variables is the trial point. (Missing: what `C83_simple_partial` misses, and what
`C77_newton_partial` misses.) -/
theorem C83_newton_partial (hb : LpBounds e) (hnf : NoFixed e) (hz : e.zeroEps = 0) (hc : c.Ok e H) (hs : s.Ok) (hp : t.prepare e p it = some t1) (ht : t1.Ok e J0 s0)
    (hfin : FinLin e it p.lpRadius) (ho : out.dim = e.numVars) (hn : (s.quadratic && s.newton) = true) (hx : s.exact = false) (hN : NewtonOk e H c s t1)
    (he : 0 < eps) (hη : 0 < s.acceptedReduction) (hη1 : s.acceptedReduction ≤ 1) (hf : ∀ x, (func x).2.WF ∧ (func x).2.dim = e.numCons)
    (h : decideExact e c s eps p it func t out = some d) (hpen : d.trial.solver.cd.penalty = p.penalty)
    (hup : dense e.numVars d.trial.solver.cd.step ≠ 0 → dense e.numVars d.trial.solver.cauchy.primal ≠ 0) :
    ∃ (δ : Fin e.numVars → K) (q : LocalModel e.numVars e.numCons K), q = e.model it (H d.trial.solver.cd) p.penalty ∧
      (∀ j : Fin e.numVars, d.trial.point.value j = min (max (it.primal.value j + δ j) (e.bounds.varsLb.value j)) (e.bounds.varsUb.value j)) ∧
      q.quad 0 = e.penaltyFn p.penalty it.objVal it.consVal.value ∧
      (2 * eps < q.quad 0 - q.quad δ →
        (d.accepted = true → s.acceptedReduction * (q.quad 0 - q.quad δ - eps) + eps ≤ e.penaltyFn p.penalty it.objVal it.consVal.value - d.penaltyAt e p.penalty func ∧
          d.penaltyAt e p.penalty func < e.penaltyFn p.penalty it.objVal it.consVal.value) ∧
        (d.penaltyAt e p.penalty func ≤ q.quad δ → d.accepted = true)) := by
  have hm : meritFunc e.numCons e.bounds it p.penalty = some t1.cd.merit ∧ t1.cd.iterate = it ∧ t1.cd.radius = p.lpRadius := by
    unfold TrialSolver.prepare at hp
    obtain ⟨m, h1, h2⟩ := Option.map_eq_some_iff.mp hp
    subst h2
    exact ⟨h1, rfl, rfl⟩
  have hit : LpIterate e it := hm.2.1 ▸ ht.cd.iterate.1
  obtain ⟨a1, a2, a3, t1', a4, a5⟩ := decideExact_spec hb hit.consVal hf h
  obtain rfl : t1' = t1 := by rw [hp] at a4; injection a4 with a4; exact a4.symm
  obtain ⟨g, τ, α, cs, ns, b1, b2, b3, b4, b5, b6, b7, b8, b9, b10, b11, b12, b13, b14, -⟩ :=
    C77_newton_partial hb hnf hz hc hs ht (by rw [hm.2.1, hm.2.2]; exact hfin) ho hn hx hN hup a5
  rw [hm.2.1, hpen] at b14
  have hq0 := model_zero hb hit (H d.trial.solver.cd) hm.1
  rw [meritFunc_penalty hb hit.consVal] at hm
  have hq : (e.model it (H d.trial.solver.cd) p.penalty).quad 0 = e.penaltyFn p.penalty it.objVal it.consVal.value := by
    rw [hq0]; exact (Option.some_inj.mp hm.1).symm
  rw [b14, a1, a2] at a3
  refine ⟨segment cs ns α, _, rfl, fun j => ?_, hq, fun hgt => ?_⟩
  · have := (b12 j).2.2
    rw [hm.2.1] at this
    exact this
  · rw [hq] at hgt ⊢
    refine ⟨fun hacc => ?_, fun hle => ?_⟩
    · rw [hacc] at a3
      exact C17_accept_decrease_partial he hη hgt a3
    · obtain ⟨r, hr⟩ := C17_good_step_accepted he hη1 hgt hle
      rw [hr] at a3
      injection a3 with a3
      exact (congrArg Prod.fst a3).symm

/-! ### Functions evaluated with errors -/

/-- C83. The error of the penalty function is at most that of the objective plus, for each constraint, the penalty parameter times its error. (The penalty parameter is the
weight of constraints which dynamic functions are told.) -/
theorem C83_weights {penalty : K} (hp : 0 ≤ penalty) (f f' : K) (c c' : Nat → K) :
    |e.penaltyFn penalty f c - e.penaltyFn penalty f' c'| ≤ |f - f'| + ∑ i ∈ range e.numCons, penalty * |c i - c' i| := by
  rw [abs_le]
  have h1 := penaltyFn_lipschitz (e := e) hp f f' c c'
  have h2 := penaltyFn_lipschitz (e := e) hp f' f c' c
  have h3 : ∑ i ∈ range e.numCons, penalty * |c' i - c i| = ∑ i ∈ range e.numCons, penalty * |c i - c' i| := sum_congr rfl fun i _ => by rw [abs_sub_comm]
  rw [h3, abs_sub_comm f' f] at h2
  constructor <;> linarith

/-- C83. With a dynamic function: if both values of the penalty function that are compared, that of the iterate and that of the trial point, have errors at most the bound
(0.4 times accepted reduction times predicted reduction) and the step is accepted, then the true values decrease, by at least half of the bound. (Missing: the code only
ensures this bound for the values at the iterate, and not for the ones which are compared, see `C83_stale_violated` and `C83_trial_violated`.) -/
theorem C83_dynamic_partial (hb : LpBounds e) (hc : it.consVal.WF ∧ it.consVal.dim = e.numCons) {calls : Nat → TrialCalls K} {eval : Nat → K → DynValues K} {fuel : Nat}
    {err b b' : K} {func : K → Vec K → K × Vec K} (hf : ∀ b x, (func b x).2.WF ∧ (func b x).2.dim = e.numCons) (he : 0 < eps) (hη : 0 < s.acceptedReduction)
    (hη1 : s.acceptedReduction ≤ 1) (hp : 0 ≤ p.penalty)
    (h : decideDyn e c calls eval s fuel eps p it err b func t out = some (d, b'))
    (hgt : 2 * eps < e.penaltyFn p.penalty it.objVal it.consVal.value - d.trial.merit)
    {f0 : K} {c0 : Nat → K} (hi : |it.objVal - f0| + ∑ i ∈ range e.numCons, p.penalty * |it.consVal.value i - c0 i| ≤
      2 / 5 * s.acceptedReduction * (e.penaltyFn p.penalty it.objVal it.consVal.value - d.trial.merit))
    {f1 : K} {c1 : Nat → K} (ht : |(func b' d.trial.point).1 - f1| + ∑ i ∈ range e.numCons, p.penalty * |(func b' d.trial.point).2.value i - c1 i| ≤
      2 / 5 * s.acceptedReduction * (e.penaltyFn p.penalty it.objVal it.consVal.value - d.trial.merit))
    (hacc : d.accepted = true) :
    e.penaltyFn p.penalty f1 c1 + 1 / 5 * s.acceptedReduction * (e.penaltyFn p.penalty it.objVal it.consVal.value - d.trial.merit) ≤ e.penaltyFn p.penalty f0 c0 ∧
      e.penaltyFn p.penalty f1 c1 < e.penaltyFn p.penalty f0 c0 := by
  obtain ⟨a1, a2, a3⟩ := decideDyn_spec hb hc hf h
  rw [hacc, a1, a2] at a3
  obtain ⟨h1, -⟩ := C17_accept_decrease_partial he hη hgt a3
  have k1 := (abs_le.mp ((C83_weights (e := e) hp it.objVal f0 it.consVal.value c0).trans hi))
  have k2 := (abs_le.mp ((C83_weights (e := e) hp (func b' d.trial.point).1 f1 (func b' d.trial.point).2.value c1).trans ht))
  unfold TrialDecision.penaltyAt at h1
  have h3 := mul_le_mul_of_nonneg_right hη1 he.le
  have h4 : 0 < s.acceptedReduction * (e.penaltyFn p.penalty it.objVal it.consVal.value - d.trial.merit) := mul_pos hη (by linarith)
  have k1 := k1.2
  have k2 := k2.1
  constructor <;> nlinarith

/-! ### Examples -/

def exAccSettings : TrialSettings ℚ := ⟨1/10^8, 1/10^6, exLs, false, false, false, 1/10^8⟩

def exAccSolver : TrialSolver ℚ := { exTpSolver with cd := exIncDir }

def exAccCalls : TrialCalls ℚ := { exTpCalls with lp := exIncCalls }

theorem exAccCalls_ok : exAccCalls.Ok exLpEnv (fun _ _ _ => 1/2) := ⟨exIncCalls_correct, exTpCalls_ok.hess, exTpCalls_ok.norm⟩

theorem exAccSolver_ok : exAccSolver.Ok exLpEnv (fun _ _ => 0) exLpState := { exTpSolver_ok with cd := exIncDir_ok }

/-- the state of the solver before it is prepared, at the first iteration -/
def exAccState : StepState ℚ := ⟨4, 1, 10, 1/2, false⟩

theorem exAcc_prepare : exAccSolver.prepare exLpEnv exAccState exIncDir.iterate = some exAccSolver := by
  have h : meritFunc exLpEnv.numCons exLpEnv.bounds exIncDir.iterate exAccState.penalty = some 12 := by decide +kernel
  unfold TrialSolver.prepare
  rw [h]
  rfl

/-- `f(x) = 7 + 50 x + a x²`, `c(x) = x - b x²`, with derivatives 50 and 1 at 0 -/
def exAccFunc (a b : ℚ) (x : Vec ℚ) : ℚ × Vec ℚ := (7 + 50 * x.value 0 + a * x.value 0 ^ 2, ⟨1, 1, [(0, x.value 0 - b * x.value 0 ^ 2)]⟩)

theorem exAccFunc_ok (a b : ℚ) (x : Vec ℚ) : (exAccFunc a b x).2.WF ∧ (exAccFunc a b x).2.dim = 1 := by
  refine ⟨?_, rfl⟩
  unfold exAccFunc
  generalize x.value 0 - b * x.value 0 ^ 2 = v
  exact (C02_isValid_iff _).mp rfl

/-- When the penalty parameter changes while the trial point is computed, the predicted merit value is that of the new parameter, but the merit values of iterate and trial
point are computed with the old one. Their differences are compared, so both quotients of the step rule can be negative, and a bad step is accepted with a large
reduction ratio. Here `7 + 50 x + 4000 x²` is minimised subject to `1/2 ≤ x - 6 x² ≤ 5`, at 0: the parameter grows from 10 to 100, the trial point is 1/2, and the
local model predicts a reduction of the penalty function from 57 to 32. In fact objective, violation, and penalty functions for both parameters increase, the
latter by more than 1000; the step is accepted with ratio above 50, after which the trust region is enlarged. -/
theorem C83_penalty_violated : ∃ (e : LpEnv ℚ) (c : TrialCalls ℚ) (s : TrialSettings ℚ) (eps : ℚ) (p : StepState ℚ) (it : Iterate ℚ) (func : Vec ℚ → ℚ × Vec ℚ)
    (t t1 : TrialSolver ℚ) (out : Vec ℚ) (d : TrialDecision ℚ), LpBounds e ∧ NoFixed e ∧ e.zeroEps = 0 ∧ c.Ok e (fun _ _ _ => 1/2) ∧ s.Ok ∧ t.prepare e p it = some t1 ∧
      t1.Ok e (fun _ _ => 0) exLpState ∧ (∀ x, (func x).2.WF ∧ (func x).2.dim = e.numCons) ∧ (it.objVal = (func it.primal).1 ∧ it.consVal.value 0 = (func it.primal).2.value 0) ∧
      decideExact e c s eps p it func t out = some d ∧ d.accepted = true ∧ 50 < d.ratio ∧ p.penalty = 10 ∧ d.trial.solver.cd.penalty = 100 ∧
      e.penaltyFn 100 it.objVal it.consVal.value - d.trial.merit = 25 ∧
      it.objVal < (func d.trial.point).1 ∧
      viol (it.consVal.value 0) (e.bounds.consLb.value 0) (e.bounds.consUb.value 0) < viol ((func d.trial.point).2.value 0) (e.bounds.consLb.value 0) (e.bounds.consUb.value 0) ∧
      e.penaltyFn 10 it.objVal it.consVal.value + 1000 < d.penaltyAt e 10 func ∧
      e.penaltyFn 100 it.objVal it.consVal.value + 1000 < d.penaltyAt e 100 func := by
  have h : (decideExact exLpEnv exAccCalls exAccSettings (1/10^15) exAccState exIncDir.iterate (exAccFunc 4000 6) exAccSolver ⟨1, 0, []⟩).map
      (fun d => (d.accepted, decide (50 < d.ratio), d.trial.solver.cd.penalty, d.trial.merit, d.trial.point.value 0)) =
      some (true, true, 100, 32, 1/2) := by decide +kernel
  obtain ⟨d, h1, h2⟩ := Option.map_eq_some_iff.mp h
  simp only [Prod.mk.injEq, decide_eq_true_eq] at h2
  obtain ⟨v1, v2, v3, v4, v6⟩ := h2
  have v5 : exAccFunc 4000 6 d.trial.point = (1032, ⟨1, 1, [(0, -1)]⟩) := by
    unfold exAccFunc; rw [v6]; norm_num
  refine ⟨exLpEnv, exAccCalls, exAccSettings, 1/10^15, exAccState, exIncDir.iterate, exAccFunc 4000 6, exAccSolver, exAccSolver, ⟨1, 0, []⟩, d, exLpEnv_bounds,
    exLpEnv_noFixed, rfl, exAccCalls_ok, ⟨(exTpSettings_ok true true).1, (exTpSettings_ok true true).2, (exTpSettings_ok true true).3, (exTpSettings_ok true true).4,
    (exTpSettings_ok true true).5, (exTpSettings_ok true true).6⟩, exAcc_prepare, exAccSolver_ok, exAccFunc_ok _ _, by decide +kernel, h1, v1, v2, rfl, v3, ?_, ?_, ?_, ?_, ?_⟩
  · rw [v4]; decide +kernel
  · rw [v5]; decide +kernel
  · rw [v5]; decide +kernel
  · unfold TrialDecision.penaltyAt; rw [v5]; decide +kernel
  · unfold TrialDecision.penaltyAt; rw [v5]; decide +kernel

/-- For the same reason good steps are rejected: with objective `7 + 50 x - 88 x²` and constraint `1/2 ≤ x ≤ 5` instead, the same trial step leads to a feasible point and reduces
the penalty function from 57 to 10, when a reduction to 32 was predicted (for the old parameter, from 12 to 10), but the reduction ratio is negative. -/
theorem C83_rejected_violated : ∃ (e : LpEnv ℚ) (c : TrialCalls ℚ) (s : TrialSettings ℚ) (eps : ℚ) (p : StepState ℚ) (it : Iterate ℚ) (func : Vec ℚ → ℚ × Vec ℚ)
    (t t1 : TrialSolver ℚ) (out : Vec ℚ) (d : TrialDecision ℚ), LpBounds e ∧ NoFixed e ∧ e.zeroEps = 0 ∧ c.Ok e (fun _ _ _ => 1/2) ∧ s.Ok ∧ t.prepare e p it = some t1 ∧
      t1.Ok e (fun _ _ => 0) exLpState ∧ (∀ x, (func x).2.WF ∧ (func x).2.dim = e.numCons) ∧ (it.objVal = (func it.primal).1 ∧ it.consVal.value 0 = (func it.primal).2.value 0) ∧
      decideExact e c s eps p it func t out = some d ∧ d.accepted = false ∧ p.penalty = 10 ∧ d.trial.solver.cd.penalty = 100 ∧
      e.penaltyFn 100 it.objVal it.consVal.value = 57 ∧ d.trial.merit = 32 ∧ d.penaltyAt e 100 func = 10 ∧
      e.penaltyFn 10 it.objVal it.consVal.value = 12 ∧ d.penaltyAt e 10 func = 10 := by
  have h : (decideExact exLpEnv exAccCalls exAccSettings (1/10^15) exAccState exIncDir.iterate (exAccFunc (-88) 0) exAccSolver ⟨1, 0, []⟩).map
      (fun d => (d.accepted, d.trial.solver.cd.penalty, d.trial.merit, d.trial.point.value 0)) =
      some (false, 100, 32, 1/2) := by decide +kernel
  obtain ⟨d, h1, h2⟩ := Option.map_eq_some_iff.mp h
  simp only [Prod.mk.injEq] at h2
  obtain ⟨v1, v3, v4, v6⟩ := h2
  have v5 : exAccFunc (-88) 0 d.trial.point = (10, ⟨1, 1, [(0, 1/2)]⟩) := by
    unfold exAccFunc; rw [v6]; norm_num
  refine ⟨exLpEnv, exAccCalls, exAccSettings, 1/10^15, exAccState, exIncDir.iterate, exAccFunc (-88) 0, exAccSolver, exAccSolver, ⟨1, 0, []⟩, d, exLpEnv_bounds,
    exLpEnv_noFixed, rfl, exAccCalls_ok, ⟨(exTpSettings_ok true true).1, (exTpSettings_ok true true).2, (exTpSettings_ok true true).3, (exTpSettings_ok true true).4,
    (exTpSettings_ok true true).5, (exTpSettings_ok true true).6⟩, exAcc_prepare, exAccSolver_ok, exAccFunc_ok _ _, by decide +kernel, h1, v1, rfl, v3, ?_, v4, ?_, ?_, ?_⟩
  · decide +kernel
  · unfold TrialDecision.penaltyAt; rw [v5]; decide +kernel
  · decide +kernel
  · unfold TrialDecision.penaltyAt; rw [v5]; decide +kernel

/-! ### Dynamic functions -/

def exDynState : StepState ℚ := ⟨4, 1/2, 10, 0, true⟩

/-- the values at the iterate 0, with error `a` in the objective -/
def exDynIterate (a : ℚ) : Iterate ℚ := { exTpDir.iterate with objVal := a }

/-- the objective has value `v` away from 0; the constraint holds -/
def exDynFunc (v : ℚ) (_ : ℚ) (_ : Vec ℚ) : ℚ × Vec ℚ := (v, ⟨1, 0, []⟩)

theorem exDynFunc_ok (v b : ℚ) (x : Vec ℚ) : (exDynFunc v b x).2.WF ∧ (exDynFunc v b x).2.dim = 1 := ⟨(C02_isValid_iff (⟨1, 0, []⟩ : Vec ℚ)).mp rfl, rfl⟩

/-- With dynamic functions the iterate is evaluated again if the error is too large compared with the predicted reduction. But the merit value the step rule uses is the one
computed before. Here the first value at the iterate is 1, with error 1; evaluated again, with an error bound below 10⁻⁸, it is the exact value 0. The value at the trial point is
1/2, exactly. So the (true) objective increases by 1/2, as the solver can see, but the step is accepted, since 1/2 is less than the first value. -/
theorem C83_stale_violated : ∃ (e : LpEnv ℚ) (c : TrialCalls ℚ) (s : TrialSettings ℚ) (eval : Nat → ℚ → DynValues ℚ) (fuel : Nat) (eps : ℚ) (p : StepState ℚ) (it : Iterate ℚ)
    (func : ℚ → Vec ℚ → ℚ × Vec ℚ) (t : TrialSolver ℚ) (out : Vec ℚ) (d : TrialDecision ℚ) (b' : ℚ), LpBounds e ∧ NoFixed e ∧ c.Ok e (fun _ _ _ => 1/2) ∧ s.Ok ∧
      (∀ b x, (func b x).2.WF ∧ (func b x).2.dim = e.numCons) ∧ (∀ k b, (eval k b).objVal = 0 ∧ (eval k b).err = 0) ∧ |it.objVal - 0| ≤ 1 ∧
      decideDyn e c (fun _ => c) eval s fuel eps p it 1 1 func t out = some (d, b') ∧ b' < 1/10^8 ∧ d.trial.solver.cd.merit = 0 ∧ d.trial.merit = -1/2 ∧
      d.trial.solver.cd.penalty = p.penalty ∧ d.trialMerit = 1/2 ∧ d.accepted = true := by
  have h : (decideDyn exTpEnv exTpCalls (fun _ => exTpCalls) (fun _ _ => ⟨0, ⟨1, 1, [(0, -1)]⟩, ⟨1, 0, []⟩, exLpMat, 0⟩) (exTpSettings false false) 2 (1/10^15) exDynState
      (exDynIterate 1) 1 1 (exDynFunc (1/2)) exTpSolver ⟨1, 0, []⟩).map
      (fun d => (decide (d.2 < 1/10^8), d.1.trial.solver.cd.merit, d.1.trial.merit, d.1.trial.solver.cd.penalty, d.1.trialMerit, d.1.accepted)) =
      some (true, 0, -1/2, 10, 1/2, true) := by decide +kernel
  obtain ⟨⟨d, b'⟩, h1, h2⟩ := Option.map_eq_some_iff.mp h
  simp only [Prod.mk.injEq, decide_eq_true_eq] at h2
  obtain ⟨v1, v2, v3, v4, v5, v6⟩ := h2
  exact ⟨exTpEnv, exTpCalls, exTpSettings false false, _, 2, 1/10^15, exDynState, exDynIterate 1, exDynFunc (1/2), exTpSolver, ⟨1, 0, []⟩, d, b', exTpEnv_bounds, exTpEnv_noFixed,
    exTpCalls_ok, exTpSettings_ok _ _, exDynFunc_ok _, fun _ _ => ⟨rfl, rfl⟩, by decide +kernel, h1, v1, v2, v3, v4, v5, v6⟩

/-- If the error reported at the iterate happens to be small enough, the function is not told a smaller error bound, and so may make a much larger error at the trial point.
Here the bound is 1, the value 0 at the iterate is exact and reported to be so; the value reported at the trial point is -1/4 when the true one is 1/2, within the bound. The
step is accepted, the true objective increases by 1/2. -/
theorem C83_trial_violated : ∃ (e : LpEnv ℚ) (c : TrialCalls ℚ) (s : TrialSettings ℚ) (eval : Nat → ℚ → DynValues ℚ) (fuel : Nat) (eps : ℚ) (p : StepState ℚ) (it : Iterate ℚ)
    (func : ℚ → Vec ℚ → ℚ × Vec ℚ) (t : TrialSolver ℚ) (out : Vec ℚ) (d : TrialDecision ℚ), LpBounds e ∧ NoFixed e ∧ c.Ok e (fun _ _ _ => 1/2) ∧ s.Ok ∧
      (∀ b x, (func b x).2.WF ∧ (func b x).2.dim = e.numCons) ∧ it.objVal = 0 ∧ (∀ x, |(func 1 x).1 - 1/2| ≤ 1) ∧
      decideDyn e c (fun _ => c) eval s fuel eps p it 0 1 func t out = some (d, 1) ∧ d.trial.solver.cd.penalty = p.penalty ∧ d.trial.merit = -1/2 ∧ d.accepted = true := by
  have h : (decideDyn exTpEnv exTpCalls (fun _ => exTpCalls) (fun _ _ => ⟨0, ⟨1, 1, [(0, -1)]⟩, ⟨1, 0, []⟩, exLpMat, 0⟩) (exTpSettings false false) 2 (1/10^15) exDynState
      (exDynIterate 0) 0 1 (exDynFunc (-1/4)) exTpSolver ⟨1, 0, []⟩).map
      (fun d => (d.2, d.1.trial.solver.cd.penalty, d.1.trial.merit, d.1.accepted)) =
      some (1, 10, -1/2, true) := by decide +kernel
  obtain ⟨⟨d, b'⟩, h1, h2⟩ := Option.map_eq_some_iff.mp h
  simp only [Prod.mk.injEq] at h2
  obtain ⟨rfl, v2, v3, v4⟩ := h2
  exact ⟨exTpEnv, exTpCalls, exTpSettings false false, _, 2, 1/10^15, exDynState, exDynIterate 0, exDynFunc (-1/4), exTpSolver, ⟨1, 0, []⟩, d, exTpEnv_bounds, exTpEnv_noFixed,
    exTpCalls_ok, exTpSettings_ok _ _, exDynFunc_ok _, rfl, fun _ => (by show |(-1/4 : ℚ) - 1/2| ≤ 1; decide +kernel), h1, v2, v3, v4⟩

/-! ### The hypotheses are met -/

/-- `C83_simple_partial`: minimise `-x + x²/4` with `-1 ≤ x ≤ 1` at 0, a step of length 1/2 is accepted -/
example : ∃ d, decideExact exTpEnv exTpCalls (exTpSettings false false) (1/10^15) exDynState exTpDir.iterate (fun x => (-x.value 0 + x.value 0 ^ 2 / 4, ⟨1, 1, [(0, x.value 0)]⟩))
      exTpSolver ⟨1, 0, []⟩ = some d ∧ d.accepted = true ∧ d.trial.solver.cd.penalty = exDynState.penalty ∧ d.iterateMerit - d.trial.merit = 1/2 ∧
      exTpSolver.prepare exTpEnv exDynState exTpDir.iterate = some exTpSolver ∧ exTpSolver.Ok exTpEnv (fun _ _ => 0) exLpState ∧
      FinLin exTpEnv exTpDir.iterate exDynState.lpRadius := by
  have h : (decideExact exTpEnv exTpCalls (exTpSettings false false) (1/10^15) exDynState exTpDir.iterate (fun x => (-x.value 0 + x.value 0 ^ 2 / 4, ⟨1, 1, [(0, x.value 0)]⟩))
      exTpSolver ⟨1, 0, []⟩).map (fun d => (d.accepted, d.trial.solver.cd.penalty, d.iterateMerit - d.trial.merit)) = some (true, 10, 1/2) := by decide +kernel
  obtain ⟨d, h1, h2⟩ := Option.map_eq_some_iff.mp h
  simp only [Prod.mk.injEq] at h2
  have hm : meritFunc exTpEnv.numCons exTpEnv.bounds exTpDir.iterate exDynState.penalty = some 0 := by decide +kernel
  exact ⟨d, h1, h2.1, h2.2.1, h2.2.2, by unfold TrialSolver.prepare; rw [hm]; rfl, exTpSolver_ok, exTp_finLin⟩

/-- `C83_newton_partial`: the same problem, the trial point 1 is accepted -/
example : ∃ d, decideExact exTpEnv exTpCalls (exTpSettings true false) (1/10^15) exDynState exTpDir.iterate (fun x => (-x.value 0 + x.value 0 ^ 2 / 4, ⟨1, 1, [(0, x.value 0)]⟩))
      exTpSolver ⟨1, 0, []⟩ = some d ∧ d.accepted = true ∧ d.trial.solver.cd.penalty = exDynState.penalty ∧ d.iterateMerit - d.trial.merit = 3/4 ∧
      NewtonOk exTpEnv exTpHess exTpCalls (exTpSettings true false) exTpSolver ∧
      (dense 1 d.trial.solver.cd.step ≠ 0 → dense 1 d.trial.solver.cauchy.primal ≠ 0) := by
  have h : (decideExact exTpEnv exTpCalls (exTpSettings true false) (1/10^15) exDynState exTpDir.iterate (fun x => (-x.value 0 + x.value 0 ^ 2 / 4, ⟨1, 1, [(0, x.value 0)]⟩))
      exTpSolver ⟨1, 0, []⟩).map (fun d => (d.accepted, d.trial.solver.cd.penalty, d.iterateMerit - d.trial.merit, d.trial.solver.cauchy.primal.value 0)) =
      some (true, 10, 3/4, 1/2) := by decide +kernel
  obtain ⟨d, h1, h2⟩ := Option.map_eq_some_iff.mp h
  simp only [Prod.mk.injEq] at h2
  refine ⟨d, h1, h2.1, h2.2.1, h2.2.2.1, exTp_newtonOk _ _, fun _ h0 => ?_⟩
  have := congrFun h0 0
  change d.trial.solver.cauchy.primal.value 0 = 0 at this
  rw [h2.2.2.2] at this
  norm_num at this

/-- `C83_dynamic_partial`: true values 0 and -7/16, errors 10⁻⁹ within the bound 2·10⁻⁹ -/
example : ∃ d b', decideDyn exTpEnv exTpCalls (fun _ => exTpCalls) (fun _ _ => ⟨0, ⟨1, 1, [(0, -1)]⟩, ⟨1, 0, []⟩, exLpMat, 0⟩) (exTpSettings false false) 2 (1/10^15) exDynState
      (exDynIterate (1/10^9)) (1/10^9) (1/10^9) (exDynFunc (-7/16)) exTpSolver ⟨1, 0, []⟩ = some (d, b') ∧ d.accepted = true ∧
      |(exDynIterate (1/10^9)).objVal - 0| + ∑ i ∈ range exTpEnv.numCons, exDynState.penalty * |(exDynIterate (1/10^9)).consVal.value i - 0| ≤
      2 / 5 * (exTpSettings false false).acceptedReduction *
        (exTpEnv.penaltyFn exDynState.penalty (exDynIterate (1/10^9)).objVal (exDynIterate (1/10^9)).consVal.value - d.trial.merit) := by
  have h : (decideDyn exTpEnv exTpCalls (fun _ => exTpCalls) (fun _ _ => ⟨0, ⟨1, 1, [(0, -1)]⟩, ⟨1, 0, []⟩, exLpMat, 0⟩) (exTpSettings false false) 2 (1/10^15) exDynState
      (exDynIterate (1/10^9)) (1/10^9) (1/10^9) (exDynFunc (-7/16)) exTpSolver ⟨1, 0, []⟩).map (fun d => (d.1.accepted, d.1.trial.merit)) = some (true, -1/2 + 1/10^9) := by
    decide +kernel
  obtain ⟨⟨d, b'⟩, h1, h2⟩ := Option.map_eq_some_iff.mp h
  simp only [Prod.mk.injEq] at h2
  refine ⟨d, b', h1, h2.1, ?_⟩
  rw [h2.2]
  decide +kernel

end Sleqp

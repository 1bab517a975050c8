import Verif.Props.DirCheck
import Verif.Props.TrialEps

/-! C131: directions known up to small errors, and the trial directions of the library, pass the check of the debug build. -/

namespace Sleqp
variable {K : Type*} [Field K] [LinearOrder K] [IsStrictOrderedRing K] {n m : Nat}
open Matrix

theorem close_of_abs {tol a b : K} (h : |a - b| ≤ tol) : Close tol a b := by
  unfold Close
  exact h.trans (le_mul_of_one_le_right ((abs_nonneg _).trans h) (le_max_right _ _))

/-- C131: a direction whose parts are those of its step up to small errors passes the check, if the error of the Jacobian
product and the drop tolerance are together at most the tolerance of the check. -/
theorem C131_direction_near (q : LocalModel n m K) (D : Dir K) (grad : Vec K) (jac : Mat K)
    (hp : Vec K → Vec K → Option (Vec K)) {zeroEps tol : K} (hz : 0 ≤ zeroEps) {δ : DirErr K}
    (hD : DirNear q D (dense n D.primal) δ) (hg' : δ.g ≤ tol) (hc' : zeroEps + δ.c ≤ tol) (hh' : δ.h ≤ tol)
    (hg : VOk n grad) (hgq : dense n grad = q.g)
    (hj : jac.WF) (hjc : jac.numCols = n) (hjq : ∀ i j, jac.value (i : Fin m).val (j : Fin n).val = q.J i j)
    (hh : HessFor q hp) : D.check n m grad jac hp zeroEps tol = some ⟨true, 0⟩ := by
  have ht : 0 ≤ tol := (abs_nonneg _).trans (hD.grad.trans hg')
  obtain ⟨v, v1, v2, v3, -⟩ := C131_direction_valid q D grad jac hp zeroEps tol ht hD.okP hD.okC hD.okH hg hgq hj hjc hjq hh
  have hv : v.valid = true := by
    refine v2.2 ⟨close_of_abs ?_, fun i => close_of_abs ?_, fun i => close_of_abs ?_⟩
    · rw [dotProduct_comm, abs_sub_comm]; exact hD.grad.trans hg'
    · refine (abs_sub_le _ ((q.J *ᵥ dense n D.primal) i) _).trans ((add_le_add ?_ ?_).trans hc')
      · unfold cutSmall
        split
        · rename_i hle; rw [zero_sub, abs_neg]; exact hle
        · rw [sub_self, abs_zero]; exact hz
      · rw [abs_sub_comm]; exact hD.jac i
    · rw [abs_sub_comm]; exact (hD.hess i).trans hh'
  rw [v1, ← v3 hv, ← hv]

variable {e : LpEnv K} {J0 : Nat → Nat → K} {s0 : CauchyLp K} {t : TrialSolver K} {c : TrialCalls K} {s : TrialSettings K}
  {out : Vec K} {o : TrialPt K} {H : CauchyDir K → Matrix (Fin e.numVars) (Fin e.numVars) K}

/-- C131: the trial direction computed without Newton step passes the check, for any drop tolerance up to half the tolerance
of the check.  Newton steps are missing. -/
theorem C131_trial_partial (hb : LpBounds e) (hnf : NoFixed e) (hz : 0 ≤ e.zeroEps) (hcl : e.bounds.Clear e.numVars e.zeroEps)
    (hc : c.Ok e H) (hs : s.Ok) (ht : t.Ok e J0 s0) (hfin : FinLin e t.cd.iterate t.cd.radius) (ho : out.dim = e.numVars)
    (hn : (s.quadratic && s.newton) = false) (h : t.compute e c s out = some o) {tol : K} (htol : 2 * e.zeroEps ≤ tol) :
    o.solver.trial.check e.numVars e.numCons t.cd.iterate.objGrad t.cd.iterate.consJac (c.hess o.solver.cd) e.zeroEps tol =
      some ⟨true, 0⟩ := by
  obtain ⟨p, τ, d, -, -, -, -, -, hD, -⟩ := C77_near_partial hb hnf hz hcl hc hs ht hfin ho hn h rfl rfl
  have hd : dense e.numVars o.solver.trial.primal = d := funext fun i => sub_eq_zero.1 (abs_nonpos_iff.1 (hD.primal i))
  rw [← hd] at hD
  have hit := ht.cd.iterate.1
  have htol0 : 0 ≤ tol := (mul_nonneg zero_le_two hz).trans htol
  exact C131_direction_near _ _ _ _ _ hz hD htol0 (by rw [← two_mul]; exact htol) htol0 ht.cd.grad rfl hit.jac hit.cols
    (fun i j => rfl) (fun d r hd hr => hc.hess _ d r hd hr)

/-- a direction that stands for a step, exactly, passes the check -/
theorem check_of_dirFor {q : LocalModel n m K} {D : Dir K} {d : Fin n → K} (hD : DirFor q D d) {grad : Vec K} {jac : Mat K}
    {hp : Vec K → Vec K → Option (Vec K)} {tol : K} (ht : 0 ≤ tol) (hg : VOk n grad) (hgq : dense n grad = q.g)
    (hj : jac.WF) (hjc : jac.numCols = n) (hjq : ∀ i j, jac.value (i : Fin m).val (j : Fin n).val = q.J i j)
    (hh : HessFor q hp) : D.check n m grad jac hp 0 tol = some ⟨true, 0⟩ := by
  refine C131_direction_near q D grad jac hp le_rfl (δ := ⟨0, 0, 0, 0⟩) ⟨hD.okP, hD.okC, hD.okH, ?_, ?_, ?_, ?_⟩ ht (by simpa using ht)
    ht hg hgq hj hjc hjq hh
  · intro i; rw [sub_self, abs_zero]
  · rw [hD.grad, hD.primal, sub_self, abs_zero]
  · intro i; rw [hD.jac, hD.primal, sub_self, abs_zero]
  · intro i; rw [hD.hess, hD.primal, sub_self, abs_zero]

/-- C131: with Newton step and the line search used by default, Cauchy direction, Newton direction and trial direction all
pass the check.  This is for `zero_eps = 0`; a positive drop tolerance is missing, and what is missing in
`C77_newton_partial`. -/
theorem C131_trial_newton_partial (hb : LpBounds e) (hnf : NoFixed e) (hz : e.zeroEps = 0) (hc : c.Ok e H) (hs : s.Ok)
    (ht : t.Ok e J0 s0) (hfin : FinLin e t.cd.iterate t.cd.radius) (ho : out.dim = e.numVars)
    (hn : (s.quadratic && s.newton) = true) (hx : s.exact = false) (hN : NewtonOk e H c s t)
    (hup : dense e.numVars o.solver.cd.step ≠ 0 → dense e.numVars o.solver.cauchy.primal ≠ 0)
    (h : t.compute e c s out = some o) {tol : K} (htol : 0 ≤ tol) :
    ∀ D ∈ [o.solver.cauchy, o.solver.newton, o.solver.trial],
      D.check e.numVars e.numCons t.cd.iterate.objGrad t.cd.iterate.consJac (c.hess o.solver.cd) e.zeroEps tol =
        some ⟨true, 0⟩ := by
  obtain ⟨p, τ, α, x, d, -, -, -, -, -, -, -, d1, d2, d3, -⟩ := C77_newton_partial hb hnf hz hc hs ht hfin ho hn hx hN hup h
  have hit := ht.cd.iterate.1
  have key : ∀ {D : Dir K} {y : Fin e.numVars → K},
      DirFor (e.model t.cd.iterate (H o.solver.cd) o.solver.cd.penalty) D y →
      D.check e.numVars e.numCons t.cd.iterate.objGrad t.cd.iterate.consJac (c.hess o.solver.cd) e.zeroEps tol = some ⟨true, 0⟩ := by
    intro D y hD
    rw [hz]
    exact check_of_dirFor hD htol ht.cd.grad rfl hit.jac hit.cols (fun i j => rfl) (fun d r hd hr => hc.hess _ d r hd hr)
  intro D hD
  simp only [List.mem_cons, List.not_mem_nil, or_false] at hD
  rcases hD with rfl | rfl | rfl
  · exact key d1
  · exact key d2
  · exact key d3

-- hypotheses of `C131_trial_newton_partial`: the sample of C77
example : ∃ o, exTpSolver.compute exTpEnv exTpCalls (exTpSettings true false) ⟨1, 0, []⟩ = some o ∧
    ∀ D ∈ [o.solver.cauchy, o.solver.newton, o.solver.trial], D.check 1 1 exTpDir.iterate.objGrad exTpDir.iterate.consJac
      (exTpCalls.hess o.solver.cd) 0 (1 / 10 ^ 6) = some ⟨true, 0⟩ := by
  have h : (exTpSolver.compute exTpEnv exTpCalls (exTpSettings true false) ⟨1, 0, []⟩).map
      (fun o => o.solver.cauchy.primal.value 0) = some (1/2) := by decide +kernel
  obtain ⟨o, h1, h2⟩ := Option.map_eq_some_iff.mp h
  refine ⟨o, h1, ?_⟩
  refine C131_trial_newton_partial (tol := 1 / 10 ^ 6) exTpEnv_bounds exTpEnv_noFixed rfl exTpCalls_ok (exTpSettings_ok true false)
    exTpSolver_ok exTp_finLin rfl rfl rfl (exTp_newtonOk _ _) (fun _ h0 => ?_) h1 (by norm_num)
  have := congrFun h0 (0 : Fin 1)
  change o.solver.cauchy.primal.value 0 = 0 at this
  rw [h2] at this
  norm_num at this

-- hypotheses of `C131_trial_partial`: the sample of C77, drop tolerance 1/1000
example : ∃ o, exTpSolver.compute exTpEnvEps exTpCalls { exTpSettings true false with newton := false } ⟨1, 0, []⟩ = some o ∧
    o.solver.trial.check 1 1 exTpDir.iterate.objGrad exTpDir.iterate.consJac (exTpCalls.hess o.solver.cd) (1 / 1000) (1 / 500) =
      some ⟨true, 0⟩ := by
  have h : (exTpSolver.compute exTpEnvEps exTpCalls { exTpSettings true false with newton := false } ⟨1, 0, []⟩).map (fun o => o.point.value 0) =
      some (1/2) := by decide +kernel
  obtain ⟨o, h1, -⟩ := Option.map_eq_some_iff.mp h
  refine ⟨o, h1, ?_⟩
  exact C131_trial_partial (tol := 1 / 500) exTpEnvEps_bounds exTpEnv_noFixed (by decide +kernel) exTpEnvEps_clear exTpEnvEps_calls
    (s := { exTpSettings true false with newton := false }) (H := exTpHess)
    ⟨(exTpSettings_ok true false).cauchyPos, (exTpSettings_ok true false).cauchyLe, (exTpSettings_ok true false).etaNonneg, (exTpSettings_ok true false).lsPos,
      (exTpSettings_ok true false).lsLe, (exTpSettings_ok true false).cutoff⟩ exTpEnvEps_solver exTp_finLin rfl rfl h1 (by decide +kernel)

end Sleqp

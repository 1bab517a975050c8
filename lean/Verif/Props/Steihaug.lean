import Verif.Lemmas.Krylov
import Mathlib.Analysis.Real.Sqrt

/-!
C48, C64 (trust-region subproblems by conjugate gradients).
-/

namespace Sleqp
variable {K : Type*} [Field K] [LinearOrder K] [IsStrictOrderedRing K]
variable {n : Nat}
open Matrix

/-- neither the iteration limit nor the time limit matters for a problem with `n` variables -/
def NoLimit (n : Nat) (e : TrEnv K) : Prop := (e.maxIter = -1 ∨ (n : Int) < e.maxIter) ∧ ∀ it, e.timeUp it = false

omit [IsStrictOrderedRing K] [Field K] in
theorem noLimit_cut {e : TrEnv K} (h : NoLimit n e) : ¬ ∃ k, 0 ≤ k ∧ k < 0 + (n + 1) ∧ Cut e k := by
  rintro ⟨k, -, h1, h2 | h2⟩
  · rcases h.1 with h3 | h3
    · exact h2.1 h3
    · have := h2.2; omega
  · rw [h.2 k] at h2; simp at h2

/-- C48: the step lies in the trust region and in the null space, and its model value is at most that of the zero step, whatever the
Hessian, the limits and the number of passes.
This is for `zero_eps = 0`; with a positive drop tolerance it fails (`C48_drop_violated`). -/
theorem C48_step_partial {q : TrProblem n K} (hq : q.Valid) {e : TrEnv K} {grad newton : Vec K} (he : TrFor q e grad)
    (hn : newton.WF ∧ newton.dim = n) {radius : K} (hr : 0 < radius) (htol : 0 < e.relTol) (fuel : Nat) {res : TrResult K}
    (h : steihaug e fuel grad newton radius = some res) :
    (res.step.WF ∧ res.step.dim = n) ∧ dense n res.step ⬝ᵥ dense n res.step ≤ radius * radius ∧
      q.P *ᵥ dense n res.step = dense n res.step ∧ q.val (dense n res.step) ≤ 0 := by
  rcases start_spec hq he hn hr with ⟨p, p1, p2, p3, -⟩ | ⟨s, s1, s2, s3, -⟩
  · rw [p1, Option.some_inj] at h
    subst h
    refine ⟨p2, ?_, ?_, ?_⟩
    · show dense n p ⬝ᵥ dense n p ≤ _
      rw [p3, dotProduct_zero]; exact (mul_pos hr hr).le
    · show q.P *ᵥ dense n p = dense n p
      rw [p3, mulVec_zero]
    · show q.val (dense n p) ≤ 0
      rw [p3, val_zero]
  · rw [s1] at h
    have := cgLoop_spec hq he (clear_vok hn).1 (clear_vok hn).2 hr htol fuel 0 s2 s3 h
    exact ⟨this.ok, this.inside, this.null, this.dec⟩

/-- C48: the method ends after at most one pass more than there are variables, even without limits: allowing more passes
does not change the result.
This is for `zero_eps = 0`; a positive drop tolerance is missing. -/
theorem C48_terminates_partial {q : TrProblem n K} (hq : q.Valid) {e : TrEnv K} {grad newton : Vec K} (he : TrFor q e grad)
    (hn : newton.WF ∧ newton.dim = n) {radius : K} (hr : 0 < radius) (htol : 0 < e.relTol) :
    ∃ res, ∀ fuel, n < fuel → steihaug e fuel grad newton radius = some res := by
  rcases start_spec hq he hn hr with ⟨p, p1, -⟩ | ⟨s, s1, s2, s3, s4, -⟩
  · exact ⟨_, fun fuel _ => p1 fuel⟩
  · have hc : Conj q [] s := ⟨by simp, List.Pairwise.nil, by simp, by simp, by simp, by
      have : dense n s.g = -dense n s.d := by rw [s4, neg_neg]
      rw [this]
      exact Submodule.neg_mem _ (Submodule.subset_span List.mem_cons_self)⟩
    obtain ⟨res, h⟩ := cgLoop_some hq he (clear_vok hn).1 (clear_vok hn).2 hr htol (n + 1) 0 s2 s3 hc (by simp)
    exact ⟨res, fun fuel hf => by rw [s1]; exact cgLoop_mono _ _ h _ hf⟩

/-- C48: unless cut short by a limit, the step either lies on the boundary of the trust region or is stationary up to the
tolerance: the gradient of the model, projected onto the null space, is shorter than the tolerance.
This is for `zero_eps = 0`; a positive drop tolerance is missing. -/
theorem C48_stationary_partial {q : TrProblem n K} (hq : q.Valid) {e : TrEnv K} {grad newton : Vec K} (he : TrFor q e grad)
    (hn : newton.WF ∧ newton.dim = n) {radius : K} (hr : 0 < radius) (htol : 0 < e.relTol) (hl : NoLimit n e) {res : TrResult K}
    (h : steihaug e (n + 1) grad newton radius = some res) :
    res.timeout = false ∧ (dense n res.step ⬝ᵥ dense n res.step = radius * radius ∨
      (q.P *ᵥ (q.g + q.B *ᵥ dense n res.step)) ⬝ᵥ (q.P *ᵥ (q.g + q.B *ᵥ dense n res.step)) < e.relTol * e.relTol) := by
  rcases start_spec hq he hn hr with ⟨p, p1, p2, p3, p4⟩ | ⟨s, s1, s2, s3, -⟩
  · rw [p1, Option.some_inj] at h
    subst h
    refine ⟨rfl, Or.inr ?_⟩
    show (q.P *ᵥ (q.g + q.B *ᵥ dense n p)) ⬝ᵥ _ < _
    rw [p3, mulVec_zero, add_zero]; exact p4
  · rw [s1] at h
    exact (cgLoop_spec hq he (clear_vok hn).1 (clear_vok hn).2 hr htol (n + 1) 0 s2 s3 h).exit (noLimit_cut hl)

/-- C48: a multiplier of the trust region is only returned for a step on the boundary; it is nonnegative and makes the
projected stationarity condition hold along the step (as far as the sign permits).
This is for `zero_eps = 0`; a positive drop tolerance is missing. -/
theorem C48_dual_partial {q : TrProblem n K} (hq : q.Valid) {e : TrEnv K} {grad newton : Vec K} (he : TrFor q e grad)
    (hn : newton.WF ∧ newton.dim = n) {radius : K} (hr : 0 < radius) (htol : 0 < e.relTol) (fuel : Nat) {res : TrResult K}
    (h : steihaug e fuel grad newton radius = some res) {u : K} (hu : res.dual = some u) :
    dense n res.step ⬝ᵥ dense n res.step = radius * radius ∧ 0 ≤ u ∧
      u * (radius * radius) = max 0 (-(dense n res.step ⬝ᵥ q.B *ᵥ dense n res.step + q.g ⬝ᵥ dense n res.step)) := by
  rcases start_spec hq he hn hr with ⟨p, p1, p2, p3, p4⟩ | ⟨s, s1, s2, s3, -⟩
  · rw [p1, Option.some_inj] at h
    subst h
    simp at hu
  · rw [s1] at h
    exact (cgLoop_spec hq he (clear_vok hn).1 (clear_vok hn).2 hr htol fuel 0 s2 s3 h).dual u hu

/-- C48: the reported Rayleigh quotients enclose 1; each is 1 or the quotient of a nonzero direction of the null space.
This is for `zero_eps = 0`; a positive drop tolerance is missing. -/
theorem C48_rayleigh_partial {q : TrProblem n K} (hq : q.Valid) {e : TrEnv K} {grad newton : Vec K} (he : TrFor q e grad)
    (hn : newton.WF ∧ newton.dim = n) {radius : K} (hr : 0 < radius) (htol : 0 < e.relTol) (fuel : Nat) {res : TrResult K}
    (h : steihaug e fuel grad newton radius = some res) :
    res.ray.lo ≤ 1 ∧ 1 ≤ res.ray.hi ∧
      ∀ c, c = res.ray.lo ∨ c = res.ray.hi → c = 1 ∨ ∃ d, d ≠ 0 ∧ q.P *ᵥ d = d ∧ c * (d ⬝ᵥ d) = d ⬝ᵥ q.B *ᵥ d := by
  rcases start_spec hq he hn hr with ⟨p, p1, p2, p3, p4⟩ | ⟨s, s1, s2, s3, -⟩
  · rw [p1, Option.some_inj] at h
    subst h
    exact ⟨le_rfl, le_rfl, fun c hc => Or.inl (hc.elim id id)⟩
  · rw [s1] at h
    have := (cgLoop_spec hq he (clear_vok hn).1 (clear_vok hn).2 hr htol fuel 0 s2 s3 h).ray
    refine ⟨this.lo, this.hi, fun c hc => ?_⟩
    rcases hc with rfl | rfl
    · exact this.loAt
    · exact this.hiAt

/-- C64, for calls that are not cut short by a limit (the missing part is `C64_cauchy_violated`): the step is at least as good as every
multiple of the projected steepest descent direction within the trust region. -/
theorem C64_cauchy_partial {q : TrProblem n K} (hq : q.Valid) {e : TrEnv K} {grad newton : Vec K} (he : TrFor q e grad)
    (hn : newton.WF ∧ newton.dim = n) {radius : K} (hr : 0 < radius) (htol : 0 < e.relTol) (hl : NoLimit n e)
    (hg : e.relTol * e.relTol ≤ (q.P *ᵥ q.g) ⬝ᵥ (q.P *ᵥ q.g)) {res : TrResult K}
    (h : steihaug e (n + 1) grad newton radius = some res) (t : K)
    (ht : (t • (-(q.P *ᵥ q.g))) ⬝ᵥ (t • (-(q.P *ᵥ q.g))) ≤ radius * radius) :
    q.val (dense n res.step) ≤ q.val (t • (-(q.P *ᵥ q.g))) := by
  rcases start_spec hq he hn hr with ⟨p, p1, p2, p3, p4⟩ | ⟨s, s1, s2, s3, -⟩
  · exact absurd p4 (not_lt.2 hg)
  · rw [s1] at h
    exact (cgLoop_spec hq he (clear_vok hn).1 (clear_vok hn).2 hr htol (n + 1) 0 s2 s3 h).cauchy (noLimit_cut hl) t ht

/-! ### samples: Hessian `b` times the identity, no constraints -/

/-- sample solver over the reals -/
noncomputable def exTr (n : Nat) (b : ℝ) (maxIter : Int) : TrEnv ℝ :=
  ⟨fun d _ => some (d.scale b), fun d _ => some d, Real.sqrt, 0, 1 / 100, maxIter, fun _ => false, Vec.create n 0⟩

/-- sample problem -/
noncomputable def exTrProblem (b : ℝ) (g : Fin n → ℝ) : TrProblem n ℝ := ⟨g, b • 1, 1⟩

theorem exTr_valid (b : ℝ) (g : Fin n → ℝ) : (exTrProblem b g).Valid :=
  ⟨by simp [exTrProblem], by simp [exTrProblem], by simp [exTrProblem]⟩

theorem exTr_for (b : ℝ) (maxIter : Int) {grad : Vec ℝ} (h : grad.WF ∧ grad.dim = n) :
    TrFor (exTrProblem b (dense n grad)) (exTr n b maxIter) grad :=
  ⟨h, rfl, rfl, fun d _ hd => ⟨_, rfl, (scale_dense hd b).1, by rw [(scale_dense hd b).2]; simp [exTrProblem, smul_mulVec]⟩,
    fun d _ hd => ⟨d, rfl, hd, by simp [exTrProblem]⟩,
    fun x hx => ⟨Real.sqrt_nonneg x, Real.mul_self_sqrt hx⟩, rfl⟩

/-- sample gradient `(1, 0, -2)` -/
noncomputable def exTrGrad : Vec ℝ := ⟨3, 2, [(0, 1), (2, -2)]⟩

theorem exTrGrad_ok : exTrGrad.WF ∧ exTrGrad.dim = 3 := ⟨⟨by simp [exTrGrad, Srt], by simp [exTrGrad], by simp [exTrGrad]⟩, rfl⟩

example (b : ℝ) : ∃ res, steihaug (exTr 3 b (-1)) 4 exTrGrad (Vec.create 3 0) 2 = some res ∧
    dense 3 res.step ⬝ᵥ dense 3 res.step ≤ 2 * 2 := by
  have hf := exTr_for b (-1) exTrGrad_ok
  obtain ⟨res, h⟩ := C48_terminates_partial (exTr_valid b _) hf (create_ok 3 0) (radius := 2) (by norm_num) (by norm_num [exTr])
  exact ⟨res, h 4 (by norm_num), (C48_step_partial (exTr_valid b _) hf (create_ok 3 0) (by norm_num) (by norm_num [exTr]) 4 (h 4 (by norm_num))).2.1⟩

example (b : ℝ) : NoLimit 3 (exTr 3 b (-1)) ∧ NoLimit 3 (exTr 3 b 100) :=
  ⟨⟨Or.inl rfl, fun _ => rfl⟩, ⟨Or.inr (by simp [exTr]), fun _ => rfl⟩⟩

/-- When the iteration limit is reached, the solver for trust-region subproblems returns the zero step instead of the point reached so
far: with the Hessian equal to the identity, the gradient `(1, 0, -2)`, the radius 10 and a limit of one iteration, the point after the first
iteration is the exact minimiser, but the result is the zero step, which is worse than a step along the negative gradient
(tr/steihaug_solver.c:300-305, the vector `newton_step` stays cleared). -/
theorem C64_cauchy_violated : ∃ (q : TrProblem 3 ℝ) (e : TrEnv ℝ) (grad newton : Vec ℝ) (res : TrResult ℝ),
    q.Valid ∧ TrFor q e grad ∧ (newton.WF ∧ newton.dim = 3) ∧ 0 < e.relTol ∧ e.maxIter = 1 ∧ (∀ it, e.timeUp it = false) ∧
    e.relTol * e.relTol ≤ (q.P *ᵥ q.g) ⬝ᵥ (q.P *ᵥ q.g) ∧
    steihaug e 4 grad newton 10 = some res ∧ res.timeout = false ∧ dense 3 res.step = 0 ∧
    ∃ t : ℝ, (t • (-(q.P *ᵥ q.g))) ⬝ᵥ (t • (-(q.P *ᵥ q.g))) ≤ 10 * 10 ∧ q.val (t • (-(q.P *ᵥ q.g))) < q.val (dense 3 res.step) := by
  have hgg : dense 3 exTrGrad ⬝ᵥ dense 3 exTrGrad = 5 := by
    rw [← normSq_dense exTrGrad_ok]
    norm_num [exTrGrad, Vec.normSq]
  have hq := exTr_valid 1 (dense 3 exTrGrad)
  have hf := exTr_for 1 1 exTrGrad_ok
  have hP : ∀ x, (exTrProblem 1 (dense 3 exTrGrad)).P *ᵥ x = x := fun x => by simp [exTrProblem]
  have hB : ∀ x, (exTrProblem 1 (dense 3 exTrGrad)).B *ᵥ x = x := fun x => by simp [exTrProblem]
  have hg : (exTrProblem 1 (dense 3 exTrGrad)).g = dense 3 exTrGrad := rfl
  have htol : (exTr 3 1 1).relTol = 1 / 100 := rfl
  refine ⟨exTrProblem 1 (dense 3 exTrGrad), exTr 3 1 1, exTrGrad, Vec.create 3 0, ?_⟩
  rcases start_spec hq hf (create_ok 3 0) (radius := 10) (by norm_num) with ⟨p, -, -, -, p4⟩ | ⟨s, s1, s2, s3, s4, s5⟩
  · rw [hP, hg, hgg, htol] at p4
    norm_num at p4
  · have hr : dense 3 s.r = dense 3 exTrGrad := by rw [s2.r, s5, mulVec_zero, add_zero]; rfl
    have hsg : dense 3 s.g = dense 3 exTrGrad := by rw [s2.g, hP, hr]
    have hrg : s.rg = 5 := by rw [s2.rg, hr, hsg, hgg]
    have hdd : dense 3 s.d ⬝ᵥ dense 3 s.d = 5 := by rw [s4, hsg, neg_dotProduct_neg, hgg]
    obtain ⟨s', t1, -⟩ := cgPass_go (newton := (Vec.create 3 0).clear) hq hf s2 s3 0
      (by rintro (⟨-, h⟩ | h)
          · exact absurd h (by simp [exTr])
          · exact absurd h (by simp [exTr]))
      (by rw [hrg]; norm_num) (by rw [hrg, htol]; norm_num) (by rw [hB, hdd]; norm_num)
      (by rw [hB, hdd, hrg, s5, zero_add, div_self (by norm_num), one_smul, hdd]; norm_num)
    refine ⟨⟨(Vec.create 3 0).clear, none, false, s'.ray⟩, hq, hf, create_ok 3 0, by rw [htol]; norm_num, rfl, fun _ => rfl, ?_, ?_, rfl,
      ?_, 1, ?_, ?_⟩
    · rw [hP, hg, hgg, htol]; norm_num
    · rw [s1, cgLoop, t1, Option.bind_some, cgNext, cgLoop]
      rw [show cgPass (exTr 3 1 1) exTrGrad (Vec.create 3 0).clear 10 (0 + 1) s' =
        some (.done ⟨(Vec.create 3 0).clear, none, false, s'.ray⟩) from by
          unfold cgPass; rw [if_pos (by simp [exTr])]]
      rfl
    · exact (clear_vok (create_ok 3 0)).2
    · rw [hP, hg, one_smul, neg_dotProduct_neg, hgg]; norm_num
    · show _ < TrProblem.val _ (dense 3 ((Vec.create 3 0).clear : Vec ℝ))
      rw [(clear_vok (create_ok 3 0)).2, val_zero]
      unfold TrProblem.val
      rw [hP, hB, hg, one_smul, neg_dotProduct_neg, dotProduct_neg, hgg]
      norm_num

end Sleqp

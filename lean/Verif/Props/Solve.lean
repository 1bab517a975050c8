import Verif.Lemmas.Iteration
import Verif.Props.Trust
import Verif.Props.Merit
import Verif.Props.StepRule

/-!
C20, C21: the main loop.  C51: unbounded status.  C52: acceptance and the penalty.
C53: statistics.  All statements hold for every environment `env` (user functions,
trial point computation, clock, callbacks) and every step rule unless said
otherwise.
-/

namespace Sleqp

variable {K : Type*} [Field K] [LinearOrder K] {σ : Type*}
variable {p : Params K} {R : Rule K σ} {max : Option Nat} {env : Nat → IterEnv K}
  {s s' : PSolver K σ} {abortLocal : Bool} {fuel n : Nat}

theorem solve_done (h : problemSolve p R max abortLocal env fuel s = .done n s') :
    ∃ k s1 perf, Reach p R max env (s.startSolve abortLocal) k s1 ∧ s1.status = .running ∧
      s1.elapsed = k ∧ loopPass p R max (env k) s1 = .done perf s' ∧ n = if perf then k + 1 else k := by
  obtain ⟨k, s1, perf, h1, h2, h3⟩ := loop_done .start h
  obtain ⟨h4, h5⟩ := reach_basic rfl rfl h1
  exact ⟨k, s1, perf, h1, h4, h5, h2, h3⟩

/-! ### C20 -/

/-- With a finite limit `m` the loop ends (`m + 1` passes always suffice). -/
theorem C20_terminates (m : Nat) : problemSolve p R (some m) abortLocal env (m + 1) s ≠ .outOfFuel := by
  have key : ∀ fuel k (s : PSolver K σ), s.status = .running → s.elapsed = k → m + 1 ≤ fuel + k →
      k ≤ m → loop p R (some m) env fuel k s ≠ .outOfFuel := by
    intro fuel
    induction fuel with
    | zero => intro k s _ _ h1 h2; omega
    | succ fuel ih =>
      intro k s hs he h1 h2
      unfold loop
      split
      · rename_i s1 h3
        obtain ⟨_, hlt, _⟩ := loopPass_more h3
        obtain ⟨_, _, _, _, _, _, h7, h8⟩ := loopPass_more h3
        obtain ⟨_, _, _, h9⟩ := performIteration_running h8 h7
        obtain ⟨d, _, h10, h11, _⟩ := finish_spec h9
        have hel : s1.elapsed = k + 1 := by rw [h11, ← he]; rfl
        have := hlt m rfl
        exact ih (k + 1) s1 h7 hel (by omega) (by omega)
      · simp
      · simp
      · simp
  exact key (m + 1) 0 _ rfl rfl (by omega) (by omega)

/-- The result is final and the limit is respected: at most `m` iterations are run
and counted. -/
theorem C20_limit_respected (h : problemSolve p R max abortLocal env fuel s = .done n s') :
    s'.status ≠ .running ∧ s'.status ≠ .unknown ∧ s'.elapsed ≤ n ∧ n ≤ s'.elapsed + 1 ∧
    ∀ m, max = some m → n ≤ m ∧ s'.elapsed ≤ m := by
  obtain ⟨k, s1, perf, h1, h2, h3, h4, h5⟩ := solve_done h
  have hk : ∀ m, max = some m → k ≤ m := by
    intro m hm
    cases h1 with
    | start => omega
    | pass h6 h7 =>
      obtain ⟨_, hlt, _⟩ := loopPass_more h7
      have := (reach_basic rfl rfl h6).2
      have := hlt m hm
      omega
  rcases loopPass_done h4 with ⟨hp, hc⟩ | ⟨hp, _, hlt, ret, s2, h6, hc⟩
  · subst hp
    simp only [Bool.false_eq_true, if_false] at h5
    rcases hc with ⟨_, rfl⟩ | ⟨_, rfl⟩ | ⟨_, rfl⟩ <;>
      (simp only [h3, h5]; exact ⟨by simp, by simp, le_rfl, by omega, fun m hm => ⟨hk m hm, hk m hm⟩⟩)
  · subst hp
    simp only [if_true] at h5
    have hlt' : ∀ m, max = some m → k < m := fun m hm => h3 ▸ hlt m hm
    have hel : s2.elapsed = k ∨ s2.elapsed = k + 1 := by
      obtain ⟨_, ⟨_, _, rfl⟩ | ⟨_, ⟨_, _, rfl⟩ | ⟨_, _, rfl⟩ | ⟨_, _, _, _, _, _, h7, _⟩ | ⟨_, _, h7⟩⟩⟩ :=
        performIteration_cases h6
      · exact Or.inl h3
      · exact Or.inl h3
      · exact Or.inl h3
      · left; rw [h7, h3]
      · obtain ⟨d, _, _, h8, _⟩ := finish_spec h7
        right; rw [h8]; rw [← h3]; rfl
    have hbound : s2.elapsed ≤ n ∧ n ≤ s2.elapsed + 1 ∧
        ∀ m, max = some m → n ≤ m ∧ s2.elapsed ≤ m := by
      refine ⟨by omega, by omega, ?_⟩
      intro m hm
      have := hlt' m hm
      omega
    rcases hc with ⟨_, rfl⟩ | ⟨_, _, rfl⟩ | ⟨_, hst, rfl⟩
    · exact ⟨by simp, by simp, hbound⟩
    · exact ⟨by simp, by simp, hbound⟩
    · refine ⟨hst, ?_, hbound⟩
      obtain ⟨hr, ⟨_, _, rfl⟩ | ⟨_, ⟨_, _, rfl⟩ | ⟨_, _, rfl⟩ | ⟨_, _, _, h7, _⟩ | ⟨_, _, h7⟩⟩⟩ :=
        performIteration_cases h6
      · simp
      · simp
      · show s1.status ≠ _; rw [h2]; simp
      · rw [h7]; simp
      · obtain ⟨d, _, h8, _⟩ := finish_spec h7
        rw [h8]
        show s1.status ≠ _; rw [h2]; simp

/-- What each final status means. -/
theorem C20_status_meaning (h : problemSolve p R max abortLocal env fuel s = .done n s') :
    (s'.status = .abortIter → max = some n ∧ s'.elapsed = n) ∧
    (s'.status = .abortTime → (env n).timeBefore = true ∨
      ∃ k, n = k + 1 ∧ ((env k).ret = .abortTime ∨ (env k).timeAfter = true)) ∧
    (s'.status = .abortDeadpoint → s'.lpTrustRadius ≤ p.deadpoint ∨ s'.trustRadius ≤ p.deadpoint) ∧
    (s'.status = .abortManual → s'.elapsed = n ∧ ∃ k, n = k + 1 ∧ (env k).abortReq = true) ∧
    (s'.status = .optimal → s'.cur.feasRes ≤ p.feasTol ∧ s'.cur.slackRes < p.slackTol ∧
      s'.cur.statRes < p.statTol) ∧
    (s'.status = .locallyInfeasible → abortLocal = true ∧ p.feasTol < s'.cur.feasRes) ∧
    (s'.status = .unbounded → s'.cur.objVal ≤ p.objLower) := by
  obtain ⟨k, s1, perf, h1, h2, h3, h4, h5⟩ := solve_done h
  have hal : ∀ {k s1}, Reach p R max env (s.startSolve abortLocal) k s1 → s1.abortLocal = abortLocal := by
    intro k s1 hr
    induction hr with
    | start => rfl
    | pass _ hm ih =>
      obtain ⟨d, _, _, _, _, _, _, _, _, _, _, _, _, h12⟩ := reach_pass hm
      rw [h12, ih]
  have hab : s1.abortNext = true → ∃ j, k = j + 1 ∧ (env j).abortReq = true := by
    intro ha
    cases h1 with
    | start => cases ha
    | pass h6 h7 =>
      rename_i k s2
      obtain ⟨d, _, _, _, _, _, _, _, _, _, _, h10, _⟩ := reach_pass h7
      obtain ⟨_, _, h11, _⟩ := loopPass_more h7
      rw [h11, Bool.false_or] at h10
      exact ⟨k, rfl, h10 ▸ ha⟩
  have hmax : ∀ m, max = some m → k ≤ m := by
    intro m hm
    cases h1 with
    | start => omega
    | pass h6 h7 =>
      obtain ⟨_, hlt, _⟩ := loopPass_more h7
      have := (reach_basic rfl rfl h6).2
      have := hlt m hm
      omega
  rcases loopPass_done h4 with ⟨hp, hc⟩ | ⟨hp, _, hlt, ret, s2, h6, hc⟩
  · subst hp
    simp only [Bool.false_eq_true, if_false] at h5
    subst h5
    rcases hc with ⟨ht, rfl⟩ | ⟨⟨m, hm, hle⟩, rfl⟩ | ⟨ha, rfl⟩
    · refine ⟨?_, ?_, ?_, ?_, ?_, ?_, ?_⟩ <;> intro hst <;> first | (cases hst; done) | exact Or.inl ht
    · refine ⟨?_, ?_, ?_, ?_, ?_, ?_, ?_⟩ <;> intro hst <;> first | (cases hst; done) | skip
      have := hmax m hm
      rw [h3] at hle
      exact ⟨by rw [hm]; congr 1; omega, h3⟩
    · refine ⟨?_, ?_, ?_, ?_, ?_, ?_, ?_⟩ <;> intro hst <;> first | (cases hst; done) | exact ⟨h3, hab ha⟩
  · subst hp
    simp only [if_true] at h5
    subst h5
    rcases hc with ⟨ht, rfl⟩ | ⟨_, hd, rfl⟩ | ⟨hret, hst0, rfl⟩
    · refine ⟨?_, ?_, ?_, ?_, ?_, ?_, ?_⟩ <;> intro hst <;> first | (cases hst; done) | skip
      refine Or.inr ⟨k, rfl, ?_⟩
      rcases ht with ht | ht
      · left
        obtain ⟨_, ⟨h7, _⟩ | ⟨_, ⟨h7, _⟩ | ⟨_, h7, _⟩ | ⟨h7, _⟩ | ⟨h7, _⟩⟩⟩ := performIteration_cases h6
        · rw [h7] at ht; cases ht
        · rw [h7] at ht; cases ht
        · rw [← h7, ht]
        · rw [h7] at ht; cases ht
        · rw [h7] at ht; cases ht
      · exact Or.inr ht
    · refine ⟨?_, ?_, ?_, ?_, ?_, ?_, ?_⟩ <;> intro hst <;> first | (cases hst; done) | exact hd
    · obtain ⟨_, ⟨_, hu, rfl⟩ | ⟨_, ⟨_, ho, rfl⟩ | ⟨hne, _⟩ | ⟨_, hl, hl2, h7, _, h8, _⟩ | ⟨_, _, h7⟩⟩⟩ :=
        performIteration_cases h6
      · refine ⟨?_, ?_, ?_, ?_, ?_, ?_, ?_⟩ <;> intro hst <;> first | (cases hst; done) | skip
        unfold PSolver.checkUnbounded at hu
        rw [Bool.and_eq_true, decide_eq_true_eq] at hu
        exact hu.1
      · refine ⟨?_, ?_, ?_, ?_, ?_, ?_, ?_⟩ <;> intro hst <;> first | (cases hst; done) | skip
        unfold PSolver.checkOptimal at ho
        split_ifs at ho with c1 c2 c3
        · simp only [Bool.not_eq_true', decide_eq_false_iff_not, not_not, decide_eq_true_eq,
            not_le, ge_iff_le] at c1 c2 c3
          exact ⟨not_lt.mp c1, c3, c2⟩
      · exact absurd hret hne
      · refine ⟨?_, ?_, ?_, ?_, ?_, ?_, ?_⟩ <;> intro hst <;> rw [h7] at hst <;>
          first | (cases hst; done) | skip
        refine ⟨by rw [← hal h1, hl2], ?_⟩
        rw [h8]
        unfold locallyInfeasible at hl
        split_ifs at hl with c1
        exact not_le.mp c1
      · obtain ⟨d, _, h8, _⟩ := finish_spec h7
        exfalso
        apply hst0
        rw [h8]; exact h2

/-- The radii stay positive during a solve. -/
theorem C20_radii_positive [IsStrictOrderedRing K] (he : 0 ≤ p.eps) (hn : ∀ k, 0 ≤ (env k).trialNorm)
    (h1 : 0 < s.trustRadius) (h2 : 0 < s.lpTrustRadius) {k : Nat} {s1 : PSolver K σ}
    (hr : Reach p R max env (s.startSolve abortLocal) k s1) :
    0 < s1.trustRadius ∧ 0 < s1.lpTrustRadius := by
  induction hr with
  | start => exact ⟨h1, h2⟩
  | @pass k s2 s3 _ hm ih =>
    obtain ⟨d, _, _, _, _, _, h6, h7, _⟩ := reach_pass hm
    rw [h6, h7]
    refine ⟨?_, updateLp_pos ih.2⟩
    split_ifs
    · exact updateTrust_pos he ih.1 (hn k)
    · exact ih.1

/-! ### C21 -/

/-- After an iteration during which an abort was called for, no further iteration is
run: of the `n` iterations only the last can have called for it. -/
theorem C21_abort_honoured (h : problemSolve p R max abortLocal env fuel s = .done n s') (j : Nat)
    (hj : j < n) (hreq : (env j).abortReq = true) : n = j + 1 := by
  obtain ⟨k, s1, perf, h1, h2, h3, h4, h5⟩ := solve_done h
  have key : ∀ {k s1}, Reach p R max env (s.startSolve abortLocal) k s1 →
      (∀ i, i + 1 < k → (env i).abortReq = false) ∧
      (∀ i, i + 1 = k → (env i).abortReq = true → s1.abortNext = true) := by
    intro k s1 hr
    induction hr with
    | start => exact ⟨fun i hi => by omega, fun i hi => by omega⟩
    | @pass k s2 s3 _ hm ih =>
      obtain ⟨_, _, h6, _⟩ := loopPass_more hm
      obtain ⟨d, _, _, _, _, _, _, _, _, _, _, h10, _⟩ := reach_pass hm
      constructor
      · intro i hi
        rcases Nat.lt_or_ge (i + 1) k with hik | hik
        · exact ih.1 i hik
        · have := ih.2 i (by omega)
          by_contra hc
          rw [this (by simpa using hc)] at h6
          cases h6
      · intro i hi hr
        have : i = k := by omega
        subst this
        rw [h10, hr, Bool.or_true]
  obtain ⟨ka, kb⟩ := key h1
  rcases loopPass_done h4 with ⟨hp, hc⟩ | ⟨hp, ha, _⟩
  · subst hp
    simp only [Bool.false_eq_true, if_false] at h5
    by_contra hne
    rw [ka j (by omega)] at hreq; cases hreq
  · subst hp
    simp only [if_true] at h5
    by_contra hne
    rcases Nat.lt_or_ge (j + 1) k with hjk | hjk
    · rw [ka j hjk] at hreq; cases hreq
    · rw [kb j (by omega) hreq] at ha; cases ha

/-- A request from before the solve has no effect on it. -/
theorem C21_cleared_at_start (b : Bool) :
    problemSolve p R max abortLocal env fuel { s with abortNext := b } =
      problemSolve p R max abortLocal env fuel s := rfl

/-! ### C51: unbounded status -/

/-- Unbounded is reported only with an objective at most the bound and a feasible
stored residual; the residual is that of the reported iterate if the last step was
rejected.  Missing: the iterate itself being feasible after an accepted step (false,
next theorem). -/
theorem C51_unbounded_partial (h : problemSolve p R max abortLocal env fuel s = .done n s')
    (hu : s'.status = .unbounded) :
    s'.cur.objVal ≤ p.objLower ∧ s'.feasRes ≤ p.feasTol ∧
    (2 ≤ n → s'.stepType = .rejected → s'.cur.feasRes ≤ p.feasTol) := by
  refine ⟨(C20_status_meaning h).2.2.2.2.2.2 hu, ?_⟩
  obtain ⟨k, s1, perf, h1, h2, h3, h4, h5⟩ := solve_done h
  rcases loopPass_done h4 with ⟨hp, ⟨_, rfl⟩ | ⟨_, rfl⟩ | ⟨_, rfl⟩⟩ | ⟨hp, _, _, ret, s2, h6, hc⟩
  · cases hu
  · cases hu
  · cases hu
  rcases hc with ⟨_, rfl⟩ | ⟨_, _, rfl⟩ | ⟨hret, hst0, rfl⟩
  · cases hu
  · cases hu
  obtain ⟨_, ⟨_, hub, rfl⟩ | ⟨_, ⟨_, ho, rfl⟩ | ⟨hne, _⟩ | ⟨_, hl, hl2, h7, _⟩ | ⟨_, _, h7⟩⟩⟩ :=
    performIteration_cases h6
  · unfold PSolver.checkUnbounded at hub
    rw [Bool.and_eq_true, decide_eq_true_eq, decide_eq_true_eq] at hub
    refine ⟨hub.2, ?_⟩
    intro hn hrej
    cases h1 with
    | start => subst hp; simp at h5; omega
    | pass h8 h9 =>
      rename_i j s3
      obtain ⟨d, hd, b1, _, _, _, _, _, _, _, hcur, _, hfeas, _⟩ := reach_pass h9
      show s1.cur.feasRes ≤ _
      have hrej' : d.stepType = .rejected := by rw [← b1]; exact hrej
      have hacc : d.accepted = false := by
        rcases decideStep_cases hd with ⟨_, hne, _⟩ | ⟨_, _, _, ⟨_, hsoc, _⟩ | ⟨hacc, _⟩⟩
        · exact absurd hrej' hne
        · rw [hsoc] at hrej'; cases hrej'
        · exact hacc
      rw [hcur, hacc, if_neg (by simp)]
      show s3.cur.feasRes ≤ _
      rw [← hfeas]
      exact hub.2
  · cases hu
  · exact absurd hret hne
  · rw [h7] at hu; cases hu
  · obtain ⟨d, _, h8, _⟩ := finish_spec h7
    exfalso; apply hst0; rw [h8]; exact h2

/-- an environment in which nothing special happens -/
def quietEnv (pt : PointData K) : IterEnv K :=
  { timeBefore := false, timeAfter := false, ret := .ok, modelTrial := 0, failedEqp := false
    fullCauchy := false, trialReject := false, lpNorm := 1, trialNorm := 1, trialInf := 1
    cauchyInf := 1, globalReset := false, newPenalty := 10, userReject := false, trialPt := pt
    socReject := false, socNorm := 0, socUserReject := false, socPt := pt, abortReq := false
    curSlack := 1, curStat := 1 }

/-- sample settings -/
def exParams : Params ℚ :=
  { eps := 1/1000, feasTol := 1/100, slackTol := 1/100, statTol := 1/100, objLower := -100
    deadpoint := 1/10000, performNewton := true, performSoc := true, numCons := 1 }

/-- decidable test of a result -/
def Out.check (o : Out K σ) (f : Nat → PSolver K σ → Bool) : Bool :=
  match o with
  | .done n s => f n s
  | _ => false

theorem Out.check_spec {o : Out K σ} {f : Nat → PSolver K σ → Bool} (h : o.check f = true) :
    ∃ n s, o = .done n s ∧ f n s = true := by
  cases o <;> simp_all [Out.check]

/-- A freshly created solver with one variable at the given point. -/
def exFresh {τ : Type*} (rule : τ) (pt : PointData ℚ) : PSolver ℚ τ :=
  { status := .unknown, stepType := .none, feasRes := 0, slackRes := 0, statRes := 0
    trustRadius := 1, lpTrustRadius := 8/10, penalty := 10, iteration := 0, elapsed := 0
    numAccepted := 0, numSoc := 0, numRejected := 0, numFailedEqp := 0, numFeasible := 0
    numResets := 0, boundaryStep := false, abortNext := false, meritValue := 0
    abortLocal := false, rule := rule, cur := pt }

theorem exFresh_create {τ : Type*} (rule : τ) (pt : PointData ℚ) :
    PSolver.create .wide 1 rule pt = some (exFresh rule pt) := by
  unfold PSolver.create initialTrustRadius
  rw [if_pos (by norm_num)]
  rfl

/-- The direct rule with threshold 1/100. -/
def exDirect : Rule ℚ Unit := Rule.direct (1/1000000) (1/100)

/-- The code violates the property: a fresh solver at an infeasible start (violation 5)
with a small objective reports "unbounded", because the stored residual is still 0. -/
theorem C51_infeasible_start_violated :
    ∃ n s', problemSolve exParams exDirect (some 10) true (fun _ => quietEnv ⟨0, 0, 0, 0, 0⟩) 11
        (exFresh () ⟨-200, 5, 5, 1, 1⟩) = .done n s' ∧
      s'.status = .unbounded ∧ exParams.feasTol < s'.cur.feasRes := by
  obtain ⟨n, s', h1, h2⟩ := Out.check_spec (o := problemSolve exParams exDirect (some 10) true
    (fun _ => quietEnv ⟨0, 0, 0, 0, 0⟩) 11 (exFresh () ⟨-200, 5, 5, 1, 1⟩))
    (f := fun _ s' => decide (s'.status = .unbounded ∧ exParams.feasTol < s'.cur.feasRes))
    (by decide +kernel)
  exact ⟨n, s', h1, of_decide_eq_true h2⟩

/-- It also violates it later: the step leading to an infeasible point was accepted,
and the check uses the residual of the previous (feasible) point. -/
theorem C51_stale_residual_violated :
    ∃ n s', problemSolve exParams exDirect (some 10) true
        (fun _ => { quietEnv ⟨-200, 5, 5, 1, 1⟩ with modelTrial := -150 }) 11
        (exFresh () ⟨0, 0, 0, 1, 1⟩) = .done n s' ∧ n = 2 ∧
      s'.status = .unbounded ∧ exParams.feasTol < s'.cur.feasRes := by
  obtain ⟨n, s', h1, h2⟩ := Out.check_spec (o := problemSolve exParams exDirect (some 10) true
    (fun _ => { quietEnv ⟨-200, 5, 5, 1, 1⟩ with modelTrial := -150 }) 11
    (exFresh () ⟨0, 0, 0, 1, 1⟩))
    (f := fun n s' => decide (n = 2 ∧ s'.status = .unbounded ∧ exParams.feasTol < s'.cur.feasRes))
    (by decide +kernel)
  exact ⟨n, s', h1, of_decide_eq_true h2⟩

/-! ### C52: the acceptance test and the penalty -/

/-- If the penalty was not changed while computing the step, then a step accepted under
the direct rule (trial or second-order correction) with a predicted decrease above
rounding level strictly decreases the merit function, by at least the required
fraction.  Missing: steps during which the penalty changes (false, see below). -/
theorem C52_accept_decreases_partial [IsStrictOrderedRing K] {eps rho : K} {p : Params K}
    {s s' : PSolver K Unit} {e : IterEnv K} (he : 0 < eps) (hrho : 0 < rho)
    (hpass : loopPass p (Rule.direct eps rho) max e s = .more s')
    (hpen : e.newPenalty = s.penalty)
    (hmod : 2 * eps < s.cur.merit s.penalty - e.modelTrial) :
    (s'.stepType = .rejected ∧ s'.cur.SameAt s.cur) ∨
    (s'.stepType ≠ .rejected ∧ s'.cur.merit s'.penalty < s.cur.merit s.penalty ∧
      rho * (s.cur.merit s.penalty - e.modelTrial - eps) + eps ≤
        s.cur.merit s.penalty - s'.cur.merit s'.penalty) := by
  obtain ⟨d, hd, b1, _, _, _, _, _, b7, _, b9, _⟩ := reach_pass hpass
  have hap : ∀ {r : Unit} {t ratio : K} {r' : Unit},
      (Rule.direct eps rho).apply r (s.cur.merit s.penalty) t e.modelTrial = some (true, ratio, r') →
      rho * (s.cur.merit s.penalty - e.modelTrial - eps) + eps ≤ s.cur.merit s.penalty - t ∧
      t < s.cur.merit s.penalty := by
    intro r t ratio r' h
    obtain ⟨q, hq, hq2⟩ := Option.map_eq_some_iff.mp h
    simp only [Prod.mk.injEq] at hq2
    exact C17_accept_decrease_partial (r := q.2) he hrho hmod (by rw [hq, ← hq2.1])
  rcases decideStep_cases hd with ⟨ha, hne, hpt, _, _, _, _, _, h1⟩ |
    ⟨_, _, _, ⟨ha, hs, hpt, _, _, _, _, _, _, _, _, h1⟩ | ⟨hacc, hs, _⟩⟩
  · right
    rw [b1, b7, hpen, b9, ha, if_pos rfl, hpt]
    have := hap h1
    exact ⟨hne, this.2, this.1⟩
  · right
    rw [b1, b7, hpen, b9, ha, if_pos rfl, hpt, hs]
    have := hap h1
    exact ⟨by simp, this.2, this.1⟩
  · left
    rw [b1, b9, hacc, hs]
    exact ⟨rfl, rfl, rfl, rfl⟩

/-- Whole runs at one penalty: the merit value never increases from one iteration to a
later one. -/
theorem C52_run_monotone_partial [IsStrictOrderedRing K] {eps rho pen : K} {p : Params K}
    {s0 : PSolver K Unit} (he : 0 < eps) (hrho : 0 < rho) (h0 : s0.penalty = pen)
    (hpen : ∀ k, (env k).newPenalty = pen)
    (hmod : ∀ k s, Reach p (Rule.direct eps rho) max env s0 k s →
      2 * eps < s.cur.merit pen - (env k).modelTrial)
    {k : Nat} {s : PSolver K Unit} (hr : Reach p (Rule.direct eps rho) max env s0 k s) :
    s.penalty = pen ∧ s.cur.merit pen ≤ s0.cur.merit pen := by
  induction hr with
  | start => exact ⟨h0, le_rfl⟩
  | @pass k s s' hr hm ih =>
    have hp' : s'.penalty = pen := by
      obtain ⟨d, _, _, _, _, _, _, _, b7, _⟩ := reach_pass hm
      rw [b7, hpen]
    refine ⟨hp', le_trans ?_ ih.2⟩
    rcases C52_accept_decreases_partial he hrho hm (by rw [hpen, ih.1])
      (by rw [ih.1]; exact hmod k s hr) with ⟨_, h⟩ | ⟨_, h, _⟩
    · exact (h.merit pen).le
    · rw [hp', ih.1] at h; exact h.le

/-- Under the window rule: the merit value never exceeds that at the start, for a whole
run at one penalty whose trials predict a decrease. -/
theorem C52_window_run_bounded_partial [IsStrictOrderedRing K] {inf rho pen : K} {p : Params K}
    {num : Nat} {arr : Nat → K × K} {s0 : PSolver K (WindowState K)} (hrho : 0 < rho)
    (h0 : s0.penalty = pen) (hrule : s0.rule = Ring.create num arr)
    (hpen : ∀ k, (env k).newPenalty = pen)
    (hmod : ∀ k s, Reach p (Rule.window inf rho) max env s0 k s →
      (env k).modelTrial < s.cur.merit pen)
    (hinf : -inf < s0.cur.merit pen ∧
      ∀ k, -inf < (env k).trialPt.merit pen ∧ -inf < (env k).socPt.merit pen)
    {k : Nat} {s : PSolver K (WindowState K)} (hr : Reach p (Rule.window inf rho) max env s0 k s) :
    s.cur.merit pen ≤ s0.cur.merit pen := by
  have key : s.penalty = pen ∧
      ∃ hist, WindowRun inf rho num arr (s0.cur.merit pen) (s.cur.merit pen) s.rule hist := by
    induction hr with
    | start => exact ⟨h0, [], by rw [hrule]; exact .init hinf.1⟩
    | @pass k s s' hr hm ih =>
      obtain ⟨hp, hist, hw⟩ := ih
      obtain ⟨d, hd, _, _, _, _, _, _, b7, b8, b9, _⟩ := reach_pass hm
      refine ⟨by rw [b7, hpen], ?_⟩
      have hmk := hmod k s hr
      have hmerit : ((s.ready p (env k)).meritValue : K) = s.cur.merit pen := by
        show s.cur.merit s.penalty = _
        rw [hp]
      have hpn : (s.ready p (env k)).penalty = pen := hp
      have hrl : (s.ready p (env k)).rule = s.rule := rfl
      have htry : ∀ {ratio1 rule1}, tryTrial (Rule.window inf rho) (s.ready p (env k)) (env k) =
          some (false, ratio1, rule1) →
          ∃ hist, WindowRun inf rho num arr (s0.cur.merit pen) (s.cur.merit pen) rule1 hist := by
        intro ratio1 rule1 ht
        unfold tryTrial at ht
        rw [hrl, hmerit, hpn] at ht
        split_ifs at ht
        · simp only [Option.some_inj, Prod.mk.injEq, true_and] at ht
          exact ⟨hist, ht.2 ▸ hw⟩
        · simp only [Option.some_inj, Prod.mk.injEq, true_and] at ht
          exact ⟨hist, ht.2 ▸ hw⟩
        · have := WindowRun.step hw hmk (hinf.2 k).1 ht
          exact ⟨_, by simpa using this⟩
      rw [b8, b9]
      rcases decideStep_cases hd with ⟨ha, hne, hpt, _, _, _, _, _, h1⟩ |
        ⟨_, _, ht, ⟨ha, hs, hpt, _, _, _, _, _, _, _, _, h1⟩ | ⟨hacc, hs, _, _, _, hru⟩⟩
      · rw [hrl, hmerit, hpn] at h1
        have := WindowRun.step hw hmk (hinf.2 k).1 h1
        simp only [if_true] at this
        rw [ha, if_pos rfl, hpt]
        exact ⟨_, this⟩
      · obtain ⟨hist1, hw1⟩ := htry ht
        rw [hmerit, hpn] at h1
        have := WindowRun.step hw1 hmk (hinf.2 k).2 h1
        simp only [if_true] at this
        rw [ha, if_pos rfl, hpt]
        exact ⟨_, this⟩
      · obtain ⟨hist1, hw1⟩ := htry ht
        rw [hacc, if_neg (by simp)]
        rcases hru with ⟨h1, _⟩ | h1
        · exact ⟨hist1, by rw [h1]; exact hw1⟩
        · rw [hmerit, hpn] at h1
          have := WindowRun.step hw1 hmk (hinf.2 k).2 h1
          simp only [Bool.false_eq_true, if_false] at this
          exact ⟨_, this⟩
  obtain ⟨_, hist, hw⟩ := key
  exact (C18_window_never_above_first_partial hrho hw).1

/-- The code violates the property when the penalty is raised while the step is computed
(10 to 100 here): actual and predicted merit values belong to different penalties. The
model predicts a decrease from 100 to 50 under the new penalty; the accepted step raises
the merit value both under the old penalty (10 to 50) and under the new one (100 to
140). -/
theorem C52_mixed_penalty_violated :
    ∃ s', problemSolve exParams exDirect (some 1) true
        (fun _ => { quietEnv ⟨40, 1, 1, 1, 1⟩ with modelTrial := 50, newPenalty := 100 }) 2
        (exFresh () ⟨0, 1, 1, 1, 1⟩) = .done 1 s' ∧
      s'.stepType = .accepted ∧ s'.penalty = 100 ∧
      s'.cur.merit 10 = 50 ∧ s'.cur.merit 100 = 140 := by
  obtain ⟨n, s', h1, h2⟩ := Out.check_spec (o := problemSolve exParams exDirect (some 1) true
    (fun _ => { quietEnv ⟨40, 1, 1, 1, 1⟩ with modelTrial := 50, newPenalty := 100 }) 2
    (exFresh () ⟨0, 1, 1, 1, 1⟩))
    (f := fun n s' => decide (n = 1 ∧ s'.stepType = .accepted ∧ s'.penalty = 100 ∧
      s'.cur.merit 10 = 50 ∧ s'.cur.merit 100 = 140))
    (by decide +kernel)
  obtain ⟨rfl, h3⟩ := of_decide_eq_true h2
  exact ⟨s', h1, h3⟩

/-- A run used to show that the hypotheses can be met: objective 8, 6, 4, … with a model
that predicts a little too much; an abort is called for in the third iteration. -/
def exRunEnv (k : Nat) : IterEnv ℚ :=
  { quietEnv ⟨6 - 2 * (k : ℚ), 0, 0, 1, 1⟩ with modelTrial := 5 - 2 * (k : ℚ), abortReq := k == 2 }

/-- non-vacuity (C20, C21): three iterations, ended by the request in the third -/
example : ∃ s', problemSolve exParams exDirect (some 10) true exRunEnv 11
      (exFresh () ⟨8, 0, 0, 1, 1⟩) = .done 3 s' ∧ s'.status = .abortManual ∧ s'.cur.objVal = 2 := by
  obtain ⟨n, s', h1, h2⟩ := Out.check_spec (o := problemSolve exParams exDirect (some 10) true
    exRunEnv 11 (exFresh () ⟨8, 0, 0, 1, 1⟩))
    (f := fun n s' => decide (n = 3 ∧ s'.status = .abortManual ∧ s'.cur.objVal = 2))
    (by decide +kernel)
  obtain ⟨rfl, h3⟩ := of_decide_eq_true h2
  exact ⟨s', h1, h3⟩

/-- non-vacuity: iteration limit 2 -/
example : ∃ s', problemSolve exParams exDirect (some 2) true exRunEnv 3
      (exFresh () ⟨8, 0, 0, 1, 1⟩) = .done 2 s' ∧ s'.status = .abortIter ∧ s'.cur.objVal = 4 := by
  obtain ⟨n, s', h1, h2⟩ := Out.check_spec (o := problemSolve exParams exDirect (some 2) true
    exRunEnv 3 (exFresh () ⟨8, 0, 0, 1, 1⟩))
    (f := fun n s' => decide (n = 2 ∧ s'.status = .abortIter ∧ s'.cur.objVal = 4))
    (by decide +kernel)
  obtain ⟨rfl, h3⟩ := of_decide_eq_true h2
  exact ⟨s', h1, h3⟩

/-! ### C53: statistics -/

/-- The counters of accepted, SOC-accepted and rejected steps never exceed the number of
iterations; they add up to it if second-order corrections are off or none was discarded
before its evaluation.  Missing: discarded corrections (false, see below). -/
theorem C53_counters_partial {k : Nat} {s1 : PSolver K σ}
    (hr : Reach p R max env (s.startSolve abortLocal) k s1) :
    s1.numAccepted + s1.numSoc + s1.numRejected ≤ s1.elapsed ∧
    (p.performSoc = false ∨ p.numCons = 0 ∨
      (∀ j s, (env j).socReject = false ∧ isGt (env j).socNorm (10 * s) p.eps = false) →
      s1.numAccepted + s1.numSoc + s1.numRejected = s1.elapsed) := by
  have hb := reach_basic rfl rfl hr
  rw [hb.2]
  clear hb
  induction hr with
  | start => exact ⟨le_rfl, fun _ => rfl⟩
  | @pass k s2 s3 hr hm ih =>
    obtain ⟨d, hd, _, c1, c2, c3, _⟩ := reach_pass hm
    rw [c1, c2, c3]
    obtain ⟨ih1, ih2⟩ := ih
    rcases decideStep_cases hd with ⟨_, _, _, d1, d2, d3, _⟩ |
      ⟨_, _, _, ⟨_, _, _, d1, d2, d3, _⟩ | ⟨_, _, d1, d2, d3, _⟩⟩
    · rw [d1, d2, d3]
      exact ⟨by omega, fun h => by have := ih2 h; omega⟩
    · rw [d1, d2, d3]
      exact ⟨by omega, fun h => by have := ih2 h; omega⟩
    · rw [d1, d2, d3]
      constructor
      · split_ifs <;> omega
      · intro h
        have := ih2 h
        rw [if_neg]
        · omega
        · rintro ⟨⟨e1, e2⟩, e3⟩
          rcases h with h | h | h
          · rw [h] at e2; cases e2
          · omega
          · have := h k (s2.ready p (env k)).trustRadius
            rw [this.1, this.2] at e3
            simp at e3

/-- The code violates the sum: a rejected trial followed by a discarded correction is
counted nowhere. -/
theorem C53_uncounted_violated :
    ∃ s', problemSolve exParams exDirect (some 1) true
        (fun _ => { quietEnv ⟨40, 1, 1, 1, 1⟩ with modelTrial := 5, socReject := true }) 2
        (exFresh () ⟨0, 1, 1, 1, 1⟩) = .done 1 s' ∧
      s'.elapsed = 1 ∧ s'.numAccepted + s'.numSoc + s'.numRejected = 0 := by
  obtain ⟨n, s', h1, h2⟩ := Out.check_spec (o := problemSolve exParams exDirect (some 1) true
    (fun _ => { quietEnv ⟨40, 1, 1, 1, 1⟩ with modelTrial := 5, socReject := true }) 2
    (exFresh () ⟨0, 1, 1, 1, 1⟩))
    (f := fun n s' => decide (n = 1 ∧ s'.elapsed = 1 ∧
      s'.numAccepted + s'.numSoc + s'.numRejected = 0))
    (by decide +kernel)
  obtain ⟨rfl, h3⟩ := of_decide_eq_true h2
  exact ⟨s', h1, h3⟩

end Sleqp

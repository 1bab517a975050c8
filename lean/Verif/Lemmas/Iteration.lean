import Verif.Model.Iteration

/-! Reachability in the solver loop. -/

namespace Sleqp

variable {K : Type*} [Field K] [LinearOrder K] {σ : Type*}

/-- The numbers of two points agree as far as they do not depend on the multipliers. -/
def PointData.SameAt (a b : PointData K) : Prop :=
  a.objVal = b.objVal ∧ a.totalViol = b.totalViol ∧ a.feasRes = b.feasRes

omit [LinearOrder K] in
theorem PointData.SameAt.merit {a b : PointData K} (h : a.SameAt b) (pen : K) :
    a.merit pen = b.merit pen := by
  unfold PointData.merit
  rw [h.1, h.2.1]

/-- States at the beginning of pass `k` of the main loop. -/
inductive Reach (p : Params K) (R : Rule K σ) (max : Option Nat) (env : Nat → IterEnv K)
    (s0 : PSolver K σ) : Nat → PSolver K σ → Prop
  | start : Reach p R max env s0 0 s0
  | pass {k s s'} : Reach p R max env s0 k s → loopPass p R max (env k) s = .more s' →
      Reach p R max env s0 (k + 1) s'

variable {p : Params K} {R : Rule K σ} {max : Option Nat} {env : Nat → IterEnv K}
  {s0 : PSolver K σ}

theorem loop_done {fuel k n : Nat} {s s' : PSolver K σ} (hr : Reach p R max env s0 k s)
    (h : loop p R max env fuel k s = .done n s') :
    ∃ k' s'' perf, Reach p R max env s0 k' s'' ∧
      loopPass p R max (env k') s'' = .done perf s' ∧ n = if perf then k' + 1 else k' := by
  induction fuel generalizing k s with
  | zero => simp [loop] at h
  | succ fuel ih =>
    unfold loop at h
    split at h
    · rename_i s1 h1
      exact ih (.pass hr h1) h
    · rename_i perf s1 h1
      injection h with h2 h3
      subst h3
      exact ⟨k, s, perf, hr, h1, h2.symm⟩
    · cases h
    · cases h

/-- An iteration that leaves the status at `running` is a full one. -/
theorem performIteration_running {s s' : PSolver K σ} {e : IterEnv K}
    (h : performIteration p R s e = some (.ok, s')) (hs : s'.status = .running) :
    s.status = .running ∧ s.checkUnbounded p = false ∧ (s.prepare p).checkOptimal p = false ∧
    (s.ready p e).finish p R e = some s' := by
  unfold performIteration at h
  by_cases h1 : s.status ≠ .running
  · rw [if_pos h1] at h; cases h
  rw [if_neg h1] at h
  cases hu : s.checkUnbounded p
  · rw [hu] at h
    simp only [Bool.false_eq_true, if_false] at h
    cases ho : (s.prepare p).checkOptimal p
    · rw [ho] at h
      simp only [Bool.false_eq_true, if_false] at h
      by_cases hr : e.ret ≠ .ok
      · rw [if_pos hr] at h
        simp only [Option.some_inj, Prod.mk.injEq] at h
        exact absurd h.1 hr
      · rw [if_neg hr] at h
        split at h
        · simp only [Option.some_inj, Prod.mk.injEq, true_and] at h
          rw [← h] at hs
          cases hs
        · obtain ⟨s3, h3, h4⟩ := Option.map_eq_some_iff.mp h
          simp only [Prod.mk.injEq, true_and] at h4
          subst h4
          exact ⟨not_not.mp h1, rfl, rfl, h3⟩
    · rw [ho] at h
      simp only [if_true, Option.some_inj, Prod.mk.injEq, true_and] at h
      rw [← h] at hs; cases hs
  · rw [hu] at h
    simp only [if_true, Option.some_inj, Prod.mk.injEq, true_and] at h
    rw [← h] at hs; cases hs

/-- What a pass that continues the loop did. -/
theorem loopPass_more {s s' : PSolver K σ} {e : IterEnv K} (h : loopPass p R max e s = .more s') :
    e.timeBefore = false ∧ (∀ m, max = some m → s.elapsed < m) ∧ s.abortNext = false ∧
    e.timeAfter = false ∧ p.deadpoint < s'.lpTrustRadius ∧ p.deadpoint < s'.trustRadius ∧
    s'.status = .running ∧ performIteration p R s e = some (.ok, s') := by
  unfold loopPass at h
  cases ht : e.timeBefore
  swap
  · rw [ht] at h; simp at h
  rw [ht] at h
  simp only [Bool.false_eq_true, if_false] at h
  by_cases hm : (max.any fun m => s.elapsed ≥ m) = true
  · rw [if_pos hm] at h; cases h
  rw [if_neg hm] at h
  cases ha : s.abortNext
  swap
  · rw [ha] at h; simp at h
  rw [ha] at h
  simp only [Bool.false_eq_true, if_false] at h
  split at h
  · cases h
  · rename_i ret s1 h1
    by_cases c1 : ret = .abortTime ∨ e.timeAfter = true
    · rw [if_pos c1] at h; cases h
    rw [if_neg c1] at h
    by_cases c2 : ret ≠ .ok
    · rw [if_pos c2] at h; cases h
    rw [if_neg c2] at h
    by_cases c3 : s1.lpTrustRadius ≤ p.deadpoint ∨ s1.trustRadius ≤ p.deadpoint
    · rw [if_pos c3] at h; cases h
    rw [if_neg c3] at h
    by_cases c4 : s1.status ≠ .running
    · rw [if_pos c4] at h; cases h
    rw [if_neg c4] at h
    injection h with h
    subst h
    push Not at c1 c2 c3 c4
    refine ⟨rfl, ?_, rfl, by simpa using c1.2, c3.1, c3.2, c4, by rw [h1, c2]⟩
    intro m hmm
    subst hmm
    simpa using hm

/-- What a pass that ends the loop did. -/
theorem loopPass_done {s s' : PSolver K σ} {e : IterEnv K} {perf : Bool}
    (h : loopPass p R max e s = .done perf s') :
    (perf = false ∧ (
      (e.timeBefore = true ∧ s' = { s with status := .abortTime }) ∨
      ((∃ m, max = some m ∧ m ≤ s.elapsed) ∧ s' = { s with status := .abortIter }) ∨
      (s.abortNext = true ∧ s' = { s with status := .abortManual }))) ∨
    (perf = true ∧ s.abortNext = false ∧ (∀ m, max = some m → s.elapsed < m) ∧
      ∃ ret s1, performIteration p R s e = some (ret, s1) ∧ (
        ((ret = .abortTime ∨ e.timeAfter = true) ∧ s' = { s1 with status := .abortTime }) ∨
        (ret = .ok ∧ (s1.lpTrustRadius ≤ p.deadpoint ∨ s1.trustRadius ≤ p.deadpoint) ∧
          s' = { s1 with status := .abortDeadpoint }) ∨
        (ret = .ok ∧ s1.status ≠ .running ∧ s' = s1))) := by
  unfold loopPass at h
  cases ht : e.timeBefore
  swap
  · rw [ht] at h
    simp only [if_true, Pass.done.injEq] at h
    exact Or.inl ⟨h.1.symm, Or.inl ⟨rfl, h.2.symm⟩⟩
  rw [ht] at h
  simp only [Bool.false_eq_true, if_false] at h
  by_cases hm : (max.any fun m => s.elapsed ≥ m) = true
  · rw [if_pos hm] at h
    injection h with h1 h2
    left
    refine ⟨h1.symm, Or.inr (Or.inl ⟨?_, h2.symm⟩)⟩
    cases max with
    | none => simp at hm
    | some m => exact ⟨m, rfl, by simpa using hm⟩
  rw [if_neg hm] at h
  have hm' : ∀ m, max = some m → s.elapsed < m := by
    intro m hmm
    subst hmm
    simpa using hm
  cases ha : s.abortNext
  swap
  · rw [ha] at h
    simp only [if_true, Pass.done.injEq] at h
    exact Or.inl ⟨h.1.symm, Or.inr (Or.inr ⟨rfl, h.2.symm⟩)⟩
  rw [ha] at h
  simp only [Bool.false_eq_true, if_false] at h
  right
  split at h
  · cases h
  · rename_i ret s1 h1
    by_cases c1 : ret = .abortTime ∨ e.timeAfter = true
    · rw [if_pos c1] at h
      injection h with h2 h3
      exact ⟨h2.symm, rfl, hm', ret, s1, h1, Or.inl ⟨c1, h3.symm⟩⟩
    rw [if_neg c1] at h
    by_cases c2 : ret ≠ .ok
    · rw [if_pos c2] at h; cases h
    rw [if_neg c2] at h
    have c2 := not_not.mp c2
    by_cases c3 : s1.lpTrustRadius ≤ p.deadpoint ∨ s1.trustRadius ≤ p.deadpoint
    · rw [if_pos c3] at h
      injection h with h2 h3
      exact ⟨h2.symm, rfl, hm', ret, s1, h1, Or.inr (Or.inl ⟨c2, c3, h3.symm⟩)⟩
    rw [if_neg c3] at h
    by_cases c4 : s1.status ≠ .running
    · rw [if_pos c4] at h
      injection h with h2 h3
      exact ⟨h2.symm, rfl, hm', ret, s1, h1, Or.inr (Or.inr ⟨c2, c4, h3.symm⟩)⟩
    rw [if_neg c4] at h; cases h

/-- All outcomes of an iteration with return code `ok`. -/
theorem performIteration_cases {s s' : PSolver K σ} {e : IterEnv K} {ret : Ret}
    (h : performIteration p R s e = some (ret, s')) :
    s.status = .running ∧ (
    (ret = .ok ∧ s.checkUnbounded p = true ∧ s' = { s with status := .unbounded }) ∨
    (s.checkUnbounded p = false ∧ (
      (ret = .ok ∧ (s.prepare p).checkOptimal p = true ∧
        s' = { s.prepare p with status := .optimal }) ∨
      (ret ≠ .ok ∧ ret = e.ret ∧ s' = (s.prepare p).estimated e) ∨
      (ret = .ok ∧ locallyInfeasible p s.cur.feasRes e = true ∧ s.abortLocal = true ∧
        s'.status = .locallyInfeasible ∧ s'.feasRes = s.cur.feasRes ∧ s'.cur = (s.estimated e).cur ∧
        s'.elapsed = s.elapsed ∧ s'.trustRadius = s.trustRadius ∧
        s'.lpTrustRadius = s.lpTrustRadius) ∨
      (ret = .ok ∧ (s.prepare p).checkOptimal p = false ∧
        (s.ready p e).finish p R e = some s')))) := by
  unfold performIteration at h
  by_cases h1 : s.status ≠ .running
  · rw [if_pos h1] at h; cases h
  rw [if_neg h1] at h
  refine ⟨not_not.mp h1, ?_⟩
  cases hu : s.checkUnbounded p
  swap
  · rw [hu] at h
    simp only [if_true, Option.some_inj, Prod.mk.injEq] at h
    exact Or.inl ⟨h.1.symm, rfl, h.2.symm⟩
  right
  refine ⟨rfl, ?_⟩
  rw [hu] at h
  simp only [Bool.false_eq_true, if_false] at h
  cases ho : (s.prepare p).checkOptimal p
  swap
  · rw [ho] at h
    simp only [if_true, Option.some_inj, Prod.mk.injEq] at h
    exact Or.inl ⟨h.1.symm, rfl, h.2.symm⟩
  rw [ho] at h
  simp only [Bool.false_eq_true, if_false] at h
  right
  by_cases hr : e.ret ≠ .ok
  · rw [if_pos hr] at h
    simp only [Option.some_inj, Prod.mk.injEq] at h
    exact Or.inl ⟨by rw [← h.1]; exact hr, h.1.symm, h.2.symm⟩
  rw [if_neg hr] at h
  right
  split at h
  · rename_i hl
    simp only [Option.some_inj, Prod.mk.injEq] at h
    rw [Bool.and_eq_true] at hl
    obtain ⟨h2, h3⟩ := h
    refine Or.inl ⟨h2.symm, hl.1, hl.2, ?_⟩
    rw [← h3]
    exact ⟨rfl, rfl, rfl, rfl, rfl, rfl⟩
  · obtain ⟨s3, h3, h4⟩ := Option.map_eq_some_iff.mp h
    simp only [Prod.mk.injEq] at h4
    obtain ⟨h5, h6⟩ := h4
    subst h6
    exact Or.inr ⟨h5.symm, rfl, h3⟩

/-- The fields after a full iteration. -/
theorem finish_spec {s s' : PSolver K σ} {e : IterEnv K} (h : s.finish p R e = some s') :
    ∃ d, decideStep p R s e = some d ∧ s'.status = s.status ∧ s'.elapsed = s.elapsed + 1 ∧
      s'.iteration = s.iteration + 1 ∧ s'.stepType = d.stepType ∧
      s'.numAccepted = s.numAccepted + d.dAccepted ∧ s'.numSoc = s.numSoc + d.dSoc ∧
      s'.numRejected = s.numRejected + d.dRejected ∧
      s'.trustRadius = (if p.performNewton then
        updateTrustRadius p.eps d.ratio d.accepted e.trialNorm s.trustRadius else s.trustRadius) ∧
      s'.lpTrustRadius =
        updateLpTrustRadius d.accepted e.trialInf e.cauchyInf e.fullCauchy s.lpTrustRadius ∧
      s'.penalty = e.newPenalty ∧ s'.rule = d.rule ∧
      s'.cur = (if d.accepted then d.newPt else s.cur) ∧
      s'.abortNext = (s.abortNext || e.abortReq) ∧ s'.feasRes = s.feasRes ∧
      s'.abortLocal = s.abortLocal ∧ s'.meritValue = s.meritValue := by
  obtain ⟨d, hd, rfl⟩ := Option.map_eq_some_iff.mp h
  exact ⟨d, hd, rfl, rfl, rfl, rfl, rfl, rfl, rfl, rfl, rfl, rfl, rfl, rfl, rfl, rfl, rfl, rfl⟩

theorem reach_basic (hst : s0.status = .running) (hel : s0.elapsed = 0) {k : Nat} {s : PSolver K σ}
    (h : Reach p R max env s0 k s) : s.status = .running ∧ s.elapsed = k := by
  induction h with
  | start => exact ⟨hst, hel⟩
  | pass _ hm ih =>
    obtain ⟨_, _, _, _, _, _, h7, h8⟩ := loopPass_more hm
    refine ⟨h7, ?_⟩
    obtain ⟨_, _, _, h9⟩ := performIteration_running h8 h7
    obtain ⟨d, _, _, h10, _⟩ := finish_spec h9
    rw [h10]
    show PSolver.elapsed _ + 1 = _
    rw [← ih.2]
    rfl

/-- One continued pass, from the state `s` to `s'`. -/
theorem reach_pass {s s' : PSolver K σ} {e : IterEnv K} (h : loopPass p R max e s = .more s') :
    ∃ d, decideStep p R (s.ready p e) e = some d ∧
      s'.stepType = d.stepType ∧
      s'.numAccepted = s.numAccepted + d.dAccepted ∧ s'.numSoc = s.numSoc + d.dSoc ∧
      s'.numRejected = s.numRejected + d.dRejected ∧
      s'.trustRadius = (if p.performNewton then
        updateTrustRadius p.eps d.ratio d.accepted e.trialNorm s.trustRadius else s.trustRadius) ∧
      s'.lpTrustRadius =
        updateLpTrustRadius d.accepted e.trialInf e.cauchyInf e.fullCauchy s.lpTrustRadius ∧
      s'.penalty = e.newPenalty ∧ s'.rule = d.rule ∧
      s'.cur = (if d.accepted then d.newPt else (s.estimated e).cur) ∧
      s'.abortNext = (s.abortNext || e.abortReq) ∧ s'.feasRes = s.cur.feasRes ∧
      s'.abortLocal = s.abortLocal := by
  obtain ⟨_, _, _, _, _, _, h7, h8⟩ := loopPass_more h
  obtain ⟨_, _, _, h9⟩ := performIteration_running h8 h7
  obtain ⟨d, a1, _, _, _, a5, a6, a7, a8, a9, a10, a11, a12, a13, a14, a15, a16, _⟩ := finish_spec h9
  exact ⟨d, a1, a5, a6, a7, a8, a9, a10, a11, a12, a13, a14, a15, a16⟩

/-- The three outcomes of the acceptance logic. -/
theorem decideStep_cases {s : PSolver K σ} {e : IterEnv K} {d : Decision K σ}
    (h : decideStep p R s e = some d) :
    (d.accepted = true ∧ d.stepType ≠ .rejected ∧ d.newPt = e.trialPt ∧
      d.dAccepted = 1 ∧ d.dSoc = 0 ∧ d.dRejected = 0 ∧
      e.trialReject = false ∧ e.userReject = false ∧
      R.apply s.rule s.meritValue (e.trialPt.merit s.penalty) e.modelTrial =
        some (true, d.ratio, d.rule)) ∨
    (∃ ratio1 rule1, tryTrial R s e = some (false, ratio1, rule1) ∧
      ((d.accepted = true ∧ d.stepType = .acceptedSoc ∧ d.newPt = e.socPt ∧
        d.dAccepted = 0 ∧ d.dSoc = 1 ∧ d.dRejected = 0 ∧ 0 < p.numCons ∧ p.performSoc = true ∧
        e.socReject = false ∧ e.socUserReject = false ∧
        isGt e.socNorm (10 * s.trustRadius) p.eps = false ∧
        R.apply rule1 s.meritValue (e.socPt.merit s.penalty) e.modelTrial =
          some (true, d.ratio, d.rule)) ∨
      (d.accepted = false ∧ d.stepType = .rejected ∧ d.dAccepted = 0 ∧ d.dSoc = 0 ∧
        d.dRejected = (if (0 < p.numCons ∧ p.performSoc = true) ∧
          (e.socReject = true ∨ isGt e.socNorm (10 * s.trustRadius) p.eps = true) then 0 else 1) ∧
        ((d.rule = rule1 ∧ d.ratio = ratio1) ∨
         R.apply rule1 s.meritValue (e.socPt.merit s.penalty) e.modelTrial =
          some (false, d.ratio, d.rule))))) := by
  unfold decideStep at h
  obtain ⟨⟨a, ratio1, rule1⟩, h1, h2⟩ := Option.bind_eq_some_iff.mp h
  cases a with
  | true =>
    left
    simp only [if_true, Option.some_inj] at h2
    unfold tryTrial at h1
    split_ifs at h1 with c1 c2
    · simp at h1
    · simp at h1
    · subst h2
      refine ⟨rfl, ?_, rfl, rfl, rfl, rfl, by simpa using c1, by simpa using c2, h1⟩
      show (if e.fullCauchy = true then StepType.acceptedFull else StepType.accepted) ≠ _
      split <;> simp
  | false =>
    right
    refine ⟨ratio1, rule1, h1, ?_⟩
    simp only [Bool.false_eq_true, if_false] at h2
    by_cases c1 : 0 < p.numCons ∧ p.performSoc = true
    · rw [if_pos c1] at h2
      unfold trySoc at h2
      simp only [] at h2
      cases c2 : e.socReject <;> cases c3 : isGt e.socNorm (10 * s.trustRadius) p.eps <;>
        simp only [c2, c3, Bool.not_false, Bool.not_true, Bool.false_eq_true, if_true, if_false] at h2
      · cases c4 : e.socUserReject <;>
          simp only [c4, Bool.false_eq_true, if_true, if_false] at h2
        · obtain ⟨⟨b, q⟩, h3, h4⟩ := Option.map_eq_some_iff.mp h2
          cases b with
          | true =>
            left
            simp only [if_true] at h4
            subst h4
            exact ⟨rfl, rfl, rfl, rfl, rfl, rfl, c1.1, c1.2, rfl, rfl, rfl, h3⟩
          | false =>
            right
            simp only [Bool.false_eq_true, if_false] at h4
            subst h4
            exact ⟨rfl, rfl, rfl, rfl, by simp, Or.inr h3⟩
        · right
          injection h2 with h2
          subst h2
          exact ⟨rfl, rfl, rfl, rfl, by simp, Or.inl ⟨rfl, rfl⟩⟩
      all_goals
        right
        injection h2 with h2
        subst h2
        exact ⟨rfl, rfl, rfl, rfl, by simp [c1], Or.inl ⟨rfl, rfl⟩⟩
    · rw [if_neg c1] at h2
      injection h2 with h2
      subst h2
      right
      refine ⟨rfl, rfl, rfl, rfl, ?_, Or.inl ⟨rfl, rfl⟩⟩
      rw [if_neg (by tauto)]

end Sleqp
